import Verif.Model.Renames

/-!
# Specification: the fixed fields of the objects of Swagger 1.2, Swagger 2.0 and OpenAPI 3.0.0

Written from the three specifications, not from the code.  (Of the objects of 1.2 that have a data type, the fields of the
data type are included.  Paths, Responses, Definitions, Callback, SecurityRequirement, Scopes, ... have patterned fields
only: they are maps.)
-/

namespace Pyopenapi.Spec

/-- The fixed fields of each object. -/
def fixedFields : List (Str × List Str) := [
  (s% "v1_2.ResourceListing", [s% "swaggerVersion", s% "apis", s% "apiVersion", s% "info", s% "authorizations"]),
  (s% "v1_2.ResourceInListing", [s% "path", s% "description"]),
  (s% "v1_2.Info", [s% "title", s% "description", s% "termsOfServiceUrl", s% "contact", s% "license", s% "licenseUrl"]),
  (s% "v1_2.Authorization", [s% "type", s% "passAs", s% "keyname", s% "scopes", s% "grantTypes"]),
  (s% "v1_2.Scope", [s% "scope", s% "description"]),
  (s% "v1_2.GrantTypes", [s% "implicit", s% "authorization_code"]),
  (s% "v1_2.Implicit", [s% "loginEndpoint", s% "tokenName"]),
  (s% "v1_2.AuthorizationCode", [s% "tokenRequestEndpoint", s% "tokenEndpoint"]),
  (s% "v1_2.LoginEndpoint", [s% "url"]),
  (s% "v1_2.TokenRequestEndpoint", [s% "url", s% "clientIdName", s% "clientSecretName"]),
  (s% "v1_2.TokenEndpoint", [s% "url", s% "tokenName"]),
  (s% "v1_2.ApiDeclaration", [s% "swaggerVersion", s% "apiVersion", s% "basePath", s% "resourcePath", s% "apis", s% "models", s% "produces",
    s% "consumes", s% "authorizations"]),
  (s% "v1_2.Api", [s% "path", s% "description", s% "operations"]),
  (s% "v1_2.Operation", [s% "method", s% "summary", s% "notes", s% "nickname", s% "authorizations", s% "parameters", s% "responseMessages",
    s% "produces", s% "consumes", s% "deprecated", s% "type", s% "$ref", s% "format", s% "defaultValue", s% "enum",
    s% "minimum", s% "maximum", s% "items", s% "uniqueItems"]),
  (s% "v1_2.Parameter", [s% "paramType", s% "name", s% "description", s% "required", s% "allowMultiple", s% "type", s% "$ref", s% "format",
    s% "defaultValue", s% "enum", s% "minimum", s% "maximum", s% "items", s% "uniqueItems"]),
  (s% "v1_2.ResponseMessage", [s% "code", s% "message", s% "responseModel"]),
  (s% "v1_2.Model", [s% "id", s% "description", s% "required", s% "properties", s% "subTypes", s% "discriminator"]),
  (s% "v1_2.Property", [s% "description", s% "type", s% "$ref", s% "format", s% "defaultValue", s% "enum", s% "minimum", s% "maximum",
    s% "items", s% "uniqueItems"]),
  (s% "v1_2.Items", [s% "type", s% "$ref", s% "format"]),
  (s% "v2_0.Swagger", [s% "swagger", s% "info", s% "host", s% "basePath", s% "schemes", s% "consumes", s% "produces", s% "paths",
    s% "definitions", s% "parameters", s% "responses", s% "securityDefinitions", s% "security", s% "tags",
    s% "externalDocs"]),
  (s% "v2_0.Info", [s% "title", s% "description", s% "termsOfService", s% "contact", s% "license", s% "version"]),
  (s% "v2_0.Contact", [s% "name", s% "url", s% "email"]),
  (s% "v2_0.License", [s% "name", s% "url"]),
  (s% "v2_0.PathItem", [s% "$ref", s% "get", s% "put", s% "post", s% "delete", s% "options", s% "head", s% "patch", s% "parameters"]),
  (s% "v2_0.Operation", [s% "tags", s% "summary", s% "description", s% "externalDocs", s% "operationId", s% "consumes", s% "produces",
    s% "parameters", s% "responses", s% "schemes", s% "deprecated", s% "security"]),
  (s% "v2_0.ExternalDocumentation", [s% "description", s% "url"]),
  (s% "v2_0.Parameter", [s% "name", s% "in", s% "description", s% "required", s% "schema", s% "allowEmptyValue", s% "collectionFormat",
    s% "type", s% "format", s% "items", s% "default", s% "maximum", s% "exclusiveMaximum", s% "minimum",
    s% "exclusiveMinimum", s% "maxLength", s% "minLength", s% "pattern", s% "maxItems", s% "minItems",
    s% "uniqueItems", s% "enum", s% "multipleOf"]),
  (s% "v2_0.Items", [s% "collectionFormat", s% "type", s% "format", s% "items", s% "default", s% "maximum", s% "exclusiveMaximum",
    s% "minimum", s% "exclusiveMinimum", s% "maxLength", s% "minLength", s% "pattern", s% "maxItems", s% "minItems",
    s% "uniqueItems", s% "enum", s% "multipleOf"]),
  (s% "v2_0.Response", [s% "description", s% "schema", s% "headers", s% "examples"]),
  (s% "v2_0.Header", [s% "description", s% "collectionFormat", s% "type", s% "format", s% "items", s% "default", s% "maximum",
    s% "exclusiveMaximum", s% "minimum", s% "exclusiveMinimum", s% "maxLength", s% "minLength", s% "pattern",
    s% "maxItems", s% "minItems", s% "uniqueItems", s% "enum", s% "multipleOf"]),
  (s% "v2_0.Tag", [s% "name", s% "description", s% "externalDocs"]),
  (s% "v2_0.Reference", [s% "$ref"]),
  (s% "v2_0.Schema", [s% "$ref", s% "title", s% "description", s% "maxProperties", s% "minProperties", s% "required", s% "allOf",
    s% "properties", s% "additionalProperties", s% "discriminator", s% "readOnly", s% "xml", s% "externalDocs",
    s% "example", s% "type", s% "format", s% "items", s% "default", s% "maximum", s% "exclusiveMaximum", s% "minimum",
    s% "exclusiveMinimum", s% "maxLength", s% "minLength", s% "pattern", s% "maxItems", s% "minItems",
    s% "uniqueItems", s% "enum", s% "multipleOf"]),
  (s% "v2_0.XMLObject", [s% "name", s% "namespace", s% "prefix", s% "attribute", s% "wrapped"]),
  (s% "v2_0.SecurityScheme", [s% "type", s% "description", s% "name", s% "in", s% "flow", s% "authorizationUrl", s% "tokenUrl", s% "scopes"]),
  (s% "v3_0_0.OpenApi", [s% "openapi", s% "info", s% "servers", s% "paths", s% "components", s% "security", s% "tags", s% "externalDocs"]),
  (s% "v3_0_0.Info", [s% "title", s% "description", s% "termsOfService", s% "contact", s% "license", s% "version"]),
  (s% "v3_0_0.Contact", [s% "name", s% "url", s% "email"]),
  (s% "v3_0_0.License", [s% "name", s% "url"]),
  (s% "v3_0_0.Server", [s% "url", s% "description", s% "variables"]),
  (s% "v3_0_0.ServerVariable", [s% "enum", s% "default", s% "description"]),
  (s% "v3_0_0.Components", [s% "schemas", s% "responses", s% "parameters", s% "examples", s% "requestBodies", s% "headers",
    s% "securitySchemes", s% "links", s% "callbacks"]),
  (s% "v3_0_0.PathItem", [s% "$ref", s% "summary", s% "description", s% "get", s% "put", s% "post", s% "delete", s% "options", s% "head",
    s% "patch", s% "trace", s% "servers", s% "parameters"]),
  (s% "v3_0_0.Operation", [s% "tags", s% "summary", s% "description", s% "externalDocs", s% "operationId", s% "parameters", s% "requestBody",
    s% "responses", s% "callbacks", s% "deprecated", s% "security", s% "servers"]),
  (s% "v3_0_0.ExternalDocumentation", [s% "description", s% "url"]),
  (s% "v3_0_0.Parameter", [s% "name", s% "in", s% "description", s% "required", s% "deprecated", s% "allowEmptyValue", s% "style",
    s% "explode", s% "allowReserved", s% "schema", s% "example", s% "examples", s% "content"]),
  (s% "v3_0_0.RequestBody", [s% "description", s% "content", s% "required"]),
  (s% "v3_0_0.MediaType", [s% "schema", s% "example", s% "examples", s% "encoding"]),
  (s% "v3_0_0.Encoding", [s% "contentType", s% "headers", s% "style", s% "explode", s% "allowReserved"]),
  (s% "v3_0_0.Response", [s% "description", s% "headers", s% "content", s% "links"]),
  (s% "v3_0_0.Example", [s% "summary", s% "description", s% "value", s% "externalValue"]),
  (s% "v3_0_0.Link", [s% "operationRef", s% "operationId", s% "parameters", s% "requestBody", s% "description", s% "server"]),
  (s% "v3_0_0.Header", [s% "description", s% "required", s% "deprecated", s% "allowEmptyValue", s% "style", s% "explode",
    s% "allowReserved", s% "schema", s% "example", s% "examples", s% "content"]),
  (s% "v3_0_0.Tag", [s% "name", s% "description", s% "externalDocs"]),
  (s% "v3_0_0.Reference", [s% "$ref"]),
  (s% "v3_0_0.Schema", [s% "title", s% "multipleOf", s% "maximum", s% "exclusiveMaximum", s% "minimum", s% "exclusiveMinimum",
    s% "maxLength", s% "minLength", s% "pattern", s% "maxItems", s% "minItems", s% "uniqueItems", s% "maxProperties",
    s% "minProperties", s% "required", s% "enum", s% "type", s% "allOf", s% "oneOf", s% "anyOf", s% "not", s% "items",
    s% "properties", s% "additionalProperties", s% "description", s% "format", s% "default", s% "nullable",
    s% "discriminator", s% "readOnly", s% "writeOnly", s% "xml", s% "externalDocs", s% "example", s% "deprecated"]),
  (s% "v3_0_0.Discriminator", [s% "propertyName", s% "mapping"]),
  (s% "v3_0_0.XML_", [s% "name", s% "namespace", s% "prefix", s% "attribute", s% "wrapped"]),
  (s% "v3_0_0.SecurityScheme", [s% "type", s% "description", s% "name", s% "in", s% "scheme", s% "bearerFormat", s% "flows", s% "openIdConnectUrl"]),
  (s% "v3_0_0.OAuthFlows", [s% "implicit", s% "password", s% "clientCredentials", s% "authorizationCode"]),
  (s% "v3_0_0.OAuthFlow", [s% "authorizationUrl", s% "tokenUrl", s% "refreshUrl", s% "scopes"])]

/-- What a field of a loaded object is kept as: the value `v` of the document is read as it is, and written by `dump`; or it is
read as an object loaded from it, whose dump `dump` writes, unless it is empty. -/
def Kept (o : Obj) (f : Str) (v : Json) : Prop :=
  (o.attribute f = .ok (.prim v) ∧ ∀ d, Obj.dump pkg o = .ok (.obj d) → Dict.get? d f = some v) ∨
    ∃ b p x, build pkg b v p [] = .ok x ∧ o.attribute f = .ok x ∧
      (∀ d, Obj.dump pkg o = .ok (.obj d) → x.truthy = true → ∃ v', Obj.dump pkg x = .ok v' ∧ Dict.get? d f = some v')

/-- A name without `_`, `-`, `$` and capital letters. -/
def plain (s : Str) : Str := (s.filter (fun c => !['_', '-', '$'].contains c)).map Char.toLower

end Pyopenapi.Spec
