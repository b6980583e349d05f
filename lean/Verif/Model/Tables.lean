import Verif.Model.Obj

/-!
# The class tables of versions/v1_2, v2_0, v3_0_0 objects.py

Generated by /verif/tools/gen_tables.py from the source text.  `rename` and internal attributes are
not part of the tables.  `Callback` (v3_0_0/objects.py:489-490, a subclass of `map_(PathItem)`) is
its `map_` builder; `Header` has no `content` child because `Parameter.attach_field('content', ..)`
(v3_0_0/objects.py:319) runs after `Header` has copied the children of `Parameter`.
-/

namespace Pyopenapi

/-- v1_2/objects.py:12-25 `Items`. -/
def v1_2_Items : ClassDef where
  version := s% "1.2"
  fields := [
    (s% "$ref", { }),
    (s% "type", { }),
    (s% "format", { })]

/-- v1_2/objects.py:28-52 `DataTypeObj`. -/
def v1_2_DataTypeObj : ClassDef where
  version := s% "1.2"
  fields := [
    (s% "type", { }),
    (s% "$ref", { }),
    (s% "format", { }),
    (s% "defaultValue", { }),
    (s% "enum", { }),
    (s% "minimum", { }),
    (s% "maximum", { }),
    (s% "uniqueItems", { })]
  children := [
    (s% "items", { builder := (.cls (s% "v1_2.Items")) })]

/-- v1_2/objects.py:55-62 `Scope`. -/
def v1_2_Scope : ClassDef where
  version := s% "1.2"
  fields := [
    (s% "scope", { required := true }),
    (s% "description", { })]

/-- v1_2/objects.py:65-71 `LoginEndpoint`. -/
def v1_2_LoginEndpoint : ClassDef where
  version := s% "1.2"
  fields := [
    (s% "url", { required := true })]

/-- v1_2/objects.py:74-89 `Implicit`. -/
def v1_2_Implicit : ClassDef where
  version := s% "1.2"
  fields := [
    (s% "tokenName", { })]
  children := [
    (s% "loginEndpoint", { builder := (.cls (s% "v1_2.LoginEndpoint")), required := true })]

/-- v1_2/objects.py:92-105 `TokenRequestEndpoint`. -/
def v1_2_TokenRequestEndpoint : ClassDef where
  version := s% "1.2"
  fields := [
    (s% "url", { required := true }),
    (s% "clientIdName", { }),
    (s% "clientSecretName", { })]

/-- v1_2/objects.py:108-119 `TokenEndpoint`. -/
def v1_2_TokenEndpoint : ClassDef where
  version := s% "1.2"
  fields := [
    (s% "url", { required := true }),
    (s% "tokenName", { })]

/-- v1_2/objects.py:122-135 `AuthorizationCode`. -/
def v1_2_AuthorizationCode : ClassDef where
  version := s% "1.2"
  children := [
    (s% "tokenRequestEndpoint", { builder := (.cls (s% "v1_2.TokenRequestEndpoint")) }),
    (s% "tokenEndpoint", { builder := (.cls (s% "v1_2.TokenEndpoint")) })]

/-- v1_2/objects.py:138-145 `GrantTypes`. -/
def v1_2_GrantTypes : ClassDef where
  version := s% "1.2"
  children := [
    (s% "implicit", { builder := (.cls (s% "v1_2.Implicit")) }),
    (s% "authorization_code", { builder := (.cls (s% "v1_2.AuthorizationCode")) })]

/-- v1_2/objects.py:148-155 `Authorizations`. -/
def v1_2_Authorizations : ClassDef where
  version := s% "1.2"
  fields := [
    (s% "scope", { }),
    (s% "description", { })]

/-- v1_2/objects.py:158-177 `Authorization`. -/
def v1_2_Authorization : ClassDef where
  version := s% "1.2"
  fields := [
    (s% "type", { }),
    (s% "passAs", { }),
    (s% "keyname", { })]
  children := [
    (s% "scopes", { builder := (.listOf (.cls (s% "v1_2.Scope"))) }),
    (s% "grantTypes", { builder := (.cls (s% "v1_2.GrantTypes")) })]

/-- v1_2/objects.py:180-192 `ResponseMessage`. -/
def v1_2_ResponseMessage : ClassDef where
  version := s% "1.2"
  fields := [
    (s% "code", { required := true }),
    (s% "message", { required := true }),
    (s% "responseModel", { })]

/-- v1_2/objects.py:195-210 `Parameter` (with the fields and children of `DataTypeObj`). -/
def v1_2_Parameter : ClassDef where
  version := s% "1.2"
  fields := [
    (s% "paramType", { required := true }),
    (s% "name", { required := true }),
    (s% "description", { }),
    (s% "required", { }),
    (s% "allowMultiple", { }),
    (s% "type", { }),
    (s% "$ref", { }),
    (s% "format", { }),
    (s% "defaultValue", { }),
    (s% "enum", { }),
    (s% "minimum", { }),
    (s% "maximum", { }),
    (s% "uniqueItems", { })]
  children := [
    (s% "items", { builder := (.cls (s% "v1_2.Items")) })]

/-- v1_2/objects.py:213-235 `Operation` (with the fields and children of `DataTypeObj`). -/
def v1_2_Operation : ClassDef where
  version := s% "1.2"
  fields := [
    (s% "method", { required := true }),
    (s% "summary", { }),
    (s% "notes", { }),
    (s% "nickname", { required := true }),
    (s% "produces", { }),
    (s% "consumes", { }),
    (s% "deprecated", { }),
    (s% "type", { }),
    (s% "$ref", { }),
    (s% "format", { }),
    (s% "defaultValue", { }),
    (s% "enum", { }),
    (s% "minimum", { }),
    (s% "maximum", { }),
    (s% "uniqueItems", { })]
  children := [
    (s% "authorizations", { builder := (.mapOf (.listOf (.cls (s% "v1_2.Authorizations")))) }),
    (s% "parameters", { builder := (.listOf (.cls (s% "v1_2.Parameter"))) }),
    (s% "responseMessages", { builder := (.listOf (.cls (s% "v1_2.ResponseMessage"))) }),
    (s% "items", { builder := (.cls (s% "v1_2.Items")) })]

/-- v1_2/objects.py:238-249 `Api`. -/
def v1_2_Api : ClassDef where
  version := s% "1.2"
  fields := [
    (s% "path", { required := true }),
    (s% "description", { })]
  children := [
    (s% "operations", { builder := (.listOf (.cls (s% "v1_2.Operation"))) })]

/-- v1_2/objects.py:252-258 `Property` (with the fields and children of `DataTypeObj`). -/
def v1_2_Property : ClassDef where
  version := s% "1.2"
  fields := [
    (s% "description", { }),
    (s% "type", { }),
    (s% "$ref", { }),
    (s% "format", { }),
    (s% "defaultValue", { }),
    (s% "enum", { }),
    (s% "minimum", { }),
    (s% "maximum", { }),
    (s% "uniqueItems", { })]
  children := [
    (s% "items", { builder := (.cls (s% "v1_2.Items")) })]

/-- v1_2/objects.py:261-280 `Model`. -/
def v1_2_Model : ClassDef where
  version := s% "1.2"
  fields := [
    (s% "id", { required := true }),
    (s% "description", { }),
    (s% "required", { }),
    (s% "subTypes", { }),
    (s% "discriminator", { })]
  children := [
    (s% "properties", { builder := (.mapOf (.cls (s% "v1_2.Property"))), required := true })]

/-- v1_2/objects.py:283-309 `ApiDeclaration`. -/
def v1_2_ApiDeclaration : ClassDef where
  version := s% "1.2"
  fields := [
    (s% "swaggerVersion", { required := true }),
    (s% "apiVersion", { }),
    (s% "basePath", { required := true }),
    (s% "resourcePath", { }),
    (s% "produces", { }),
    (s% "consumes", { }),
    (s% "description", { })]
  children := [
    (s% "apis", { builder := (.listOf (.cls (s% "v1_2.Api"))), required := true }),
    (s% "models", { builder := (.mapOf (.cls (s% "v1_2.Model"))) }),
    (s% "authorizations", { builder := (.mapOf (.listOf (.cls (s% "v1_2.Authorizations")))) })]

/-- v1_2/objects.py:312-328 `Info`. -/
def v1_2_Info : ClassDef where
  version := s% "1.2"
  fields := [
    (s% "title", { required := true }),
    (s% "description", { required := true }),
    (s% "termsOfServiceUrl", { }),
    (s% "contact", { }),
    (s% "license", { }),
    (s% "licenseUrl", { })]

/-- v1_2/objects.py:331-337 `ResourceInListing`. -/
def v1_2_ResourceInListing : ClassDef where
  version := s% "1.2"
  fields := [
    (s% "path", { }),
    (s% "description", { })]

/-- v1_2/objects.py:340-358 `ResourceListing`. -/
def v1_2_ResourceListing : ClassDef where
  version := s% "1.2"
  fields := [
    (s% "swaggerVersion", { required := true }),
    (s% "apiVersion", { })]
  children := [
    (s% "apis", { builder := (.listOf (.cls (s% "v1_2.ResourceInListing"))) }),
    (s% "info", { builder := (.cls (s% "v1_2.Info")) }),
    (s% "authorizations", { builder := (.mapOf (.cls (s% "v1_2.Authorization"))) })]

/-- v2_0/objects.py:43-52 `Reference`. -/
def v2_0_Reference : ClassDef where
  version := s% "2.0"
  fields := [
    (s% "$ref", { readonly := false })]

/-- v2_0/objects.py:55-64 `XMLObject`. -/
def v2_0_XMLObject : ClassDef where
  version := s% "2.0"
  fields := [
    (s% "name", { }),
    (s% "namespace", { }),
    (s% "prefix", { }),
    (s% "attribute", { }),
    (s% "wrapped", { })]

/-- v2_0/objects.py:67-74 `ExternalDocumentation`. -/
def v2_0_ExternalDocumentation : ClassDef where
  version := s% "2.0"
  fields := [
    (s% "description", { }),
    (s% "url", { })]

/-- v2_0/objects.py:77-91 `Tag`. -/
def v2_0_Tag : ClassDef where
  version := s% "2.0"
  fields := [
    (s% "name", { }),
    (s% "description", { })]
  children := [
    (s% "externalDocs", { builder := (.cls (s% "v2_0.ExternalDocumentation")) })]

/-- v2_0/objects.py:94-127 `BaseSchema`. -/
def v2_0_BaseSchema : ClassDef where
  version := s% "2.0"
  fields := [
    (s% "type", { }),
    (s% "format", { }),
    (s% "default", { }),
    (s% "maximum", { }),
    (s% "exclusiveMaximum", { }),
    (s% "minimum", { }),
    (s% "exclusiveMinimum", { }),
    (s% "maxLength", { }),
    (s% "minLength", { }),
    (s% "maxItems", { }),
    (s% "minItems", { }),
    (s% "multipleOf", { }),
    (s% "enum", { }),
    (s% "pattern", { }),
    (s% "uniqueItems", { })]

/-- v2_0/objects.py:130-140, 143-143 `Items` (with the fields and children of `BaseSchema`). -/
def v2_0_Items : ClassDef where
  version := s% "2.0"
  fields := [
    (s% "collectionFormat", { default := .str (s% "csv") }),
    (s% "type", { }),
    (s% "format", { }),
    (s% "default", { }),
    (s% "maximum", { }),
    (s% "exclusiveMaximum", { }),
    (s% "minimum", { }),
    (s% "exclusiveMinimum", { }),
    (s% "maxLength", { }),
    (s% "minLength", { }),
    (s% "maxItems", { }),
    (s% "minItems", { }),
    (s% "multipleOf", { }),
    (s% "enum", { }),
    (s% "pattern", { }),
    (s% "uniqueItems", { })]
  children := [
    (s% "items", { builder := (.cls (s% "v2_0.Items")) })]

/-- v2_0/objects.py:146-175, 180-180, 181-181, 182-182, 183-184 `Schema` (with the fields and children of `BaseSchema`). -/
def v2_0_Schema : ClassDef where
  version := s% "2.0"
  fields := [
    (s% "$ref", { readonly := false }),
    (s% "maxProperties", { }),
    (s% "minProperties", { }),
    (s% "title", { }),
    (s% "description", { }),
    (s% "discriminator", { }),
    (s% "readOnly", { }),
    (s% "example", { }),
    (s% "required", { default := .arr [] }),
    (s% "type", { }),
    (s% "format", { }),
    (s% "default", { }),
    (s% "maximum", { }),
    (s% "exclusiveMaximum", { }),
    (s% "minimum", { }),
    (s% "exclusiveMinimum", { }),
    (s% "maxLength", { }),
    (s% "minLength", { }),
    (s% "maxItems", { }),
    (s% "minItems", { }),
    (s% "multipleOf", { }),
    (s% "enum", { }),
    (s% "pattern", { }),
    (s% "uniqueItems", { })]
  children := [
    (s% "xml", { builder := (.cls (s% "v2_0.XMLObject")) }),
    (s% "externalDocs", { builder := (.cls (s% "v2_0.ExternalDocumentation")) }),
    (s% "items", { builder := (.cls (s% "v2_0.Schema")) }),
    (s% "allOf", { builder := (.listOf (.cls (s% "v2_0.Schema"))) }),
    (s% "properties", { builder := (.mapOf (.cls (s% "v2_0.Schema"))) }),
    (s% "additionalProperties", { builder := (.ifNotBool (.cls (s% "v2_0.Schema"))) })]

/-- v2_0/objects.py:187-194 `Contact`. -/
def v2_0_Contact : ClassDef where
  version := s% "2.0"
  fields := [
    (s% "name", { }),
    (s% "url", { }),
    (s% "email", { })]

/-- v2_0/objects.py:197-203 `License`. -/
def v2_0_License : ClassDef where
  version := s% "2.0"
  fields := [
    (s% "name", { }),
    (s% "url", { })]

/-- v2_0/objects.py:206-223 `Info`. -/
def v2_0_Info : ClassDef where
  version := s% "2.0"
  fields := [
    (s% "version", { }),
    (s% "title", { }),
    (s% "description", { }),
    (s% "termsOfService", { })]
  children := [
    (s% "contact", { builder := (.cls (s% "v2_0.Contact")) }),
    (s% "license", { builder := (.cls (s% "v2_0.License")) })]

/-- v2_0/objects.py:226-247 `Parameter` (with the fields and children of `BaseSchema`). -/
def v2_0_Parameter : ClassDef where
  version := s% "2.0"
  fields := [
    (s% "name", { }),
    (s% "in", { }),
    (s% "required", { }),
    (s% "collectionFormat", { default := .str (s% "csv") }),
    (s% "description", { }),
    (s% "allowEmptyValue", { }),
    (s% "type", { }),
    (s% "format", { }),
    (s% "default", { }),
    (s% "maximum", { }),
    (s% "exclusiveMaximum", { }),
    (s% "minimum", { }),
    (s% "exclusiveMinimum", { }),
    (s% "maxLength", { }),
    (s% "minLength", { }),
    (s% "maxItems", { }),
    (s% "minItems", { }),
    (s% "multipleOf", { }),
    (s% "enum", { }),
    (s% "pattern", { }),
    (s% "uniqueItems", { })]
  children := [
    (s% "schema", { builder := (.cls (s% "v2_0.Schema")) }),
    (s% "items", { builder := (.cls (s% "v2_0.Items")) })]

/-- v2_0/objects.py:253-267 `Header` (with the fields and children of `BaseSchema`). -/
def v2_0_Header : ClassDef where
  version := s% "2.0"
  fields := [
    (s% "collectionFormat", { default := .str (s% "csv") }),
    (s% "description", { }),
    (s% "type", { }),
    (s% "format", { }),
    (s% "default", { }),
    (s% "maximum", { }),
    (s% "exclusiveMaximum", { }),
    (s% "minimum", { }),
    (s% "exclusiveMinimum", { }),
    (s% "maxLength", { }),
    (s% "minLength", { }),
    (s% "maxItems", { }),
    (s% "minItems", { }),
    (s% "multipleOf", { }),
    (s% "enum", { }),
    (s% "pattern", { }),
    (s% "uniqueItems", { })]
  children := [
    (s% "items", { builder := (.cls (s% "v2_0.Items")) })]

/-- v2_0/objects.py:270-281 `Response`. -/
def v2_0_Response : ClassDef where
  version := s% "2.0"
  fields := [
    (s% "description", { }),
    (s% "examples", { })]
  children := [
    (s% "schema", { builder := (.cls (s% "v2_0.Schema")) }),
    (s% "headers", { builder := (.mapOf (.cls (s% "v2_0.Header"))) })]

/-- v2_0/objects.py:288-320 `Operation`. -/
def v2_0_Operation : ClassDef where
  version := s% "2.0"
  fields := [
    (s% "operationId", { }),
    (s% "deprecated", { }),
    (s% "description", { }),
    (s% "summary", { })]
  children := [
    (s% "tags", { builder := (.listOf .isStr) }),
    (s% "consumes", { builder := (.listOf .isStr) }),
    (s% "produces", { builder := (.listOf .isStr) }),
    (s% "schemes", { builder := (.listOf .isStr) }),
    (s% "parameters", { builder := (.listOf (.ifNotRef (s% "v2_0.Reference") (.cls (s% "v2_0.Parameter")))) }),
    (s% "responses", { builder := (.mapOf (.ifNotRef (s% "v2_0.Reference") (.cls (s% "v2_0.Response")))) }),
    (s% "security", { builder := (.listOf (.mapOf (.listOf .isStr))) }),
    (s% "externalDocs", { builder := (.cls (s% "v2_0.ExternalDocumentation")) })]

/-- v2_0/objects.py:323-343 `PathItem`. -/
def v2_0_PathItem : ClassDef where
  version := s% "2.0"
  fields := [
    (s% "$ref", { readonly := false })]
  children := [
    (s% "get", { builder := (.cls (s% "v2_0.Operation")) }),
    (s% "put", { builder := (.cls (s% "v2_0.Operation")) }),
    (s% "post", { builder := (.cls (s% "v2_0.Operation")) }),
    (s% "delete", { builder := (.cls (s% "v2_0.Operation")) }),
    (s% "options", { builder := (.cls (s% "v2_0.Operation")) }),
    (s% "head", { builder := (.cls (s% "v2_0.Operation")) }),
    (s% "patch", { builder := (.cls (s% "v2_0.Operation")) }),
    (s% "parameters", { builder := (.listOf (.ifNotRef (s% "v2_0.Reference") (.cls (s% "v2_0.Parameter")))) })]

/-- v2_0/objects.py:346-364 `SecurityScheme`. -/
def v2_0_SecurityScheme : ClassDef where
  version := s% "2.0"
  fields := [
    (s% "type", { }),
    (s% "description", { }),
    (s% "name", { }),
    (s% "in", { }),
    (s% "flow", { }),
    (s% "authorizationUrl", { }),
    (s% "tokenUrl", { })]
  children := [
    (s% "scopes", { builder := (.mapOf .isStr) })]

/-- v2_0/objects.py:367-396 `Swagger`. -/
def v2_0_Swagger : ClassDef where
  version := s% "2.0"
  fields := [
    (s% "swagger", { }),
    (s% "host", { }),
    (s% "basePath", { })]
  children := [
    (s% "info", { builder := (.cls (s% "v2_0.Info")) }),
    (s% "schemes", { builder := (.listOf .isStr) }),
    (s% "consumes", { builder := (.listOf .isStr) }),
    (s% "produces", { builder := (.listOf .isStr) }),
    (s% "paths", { builder := (.mapOf (.cls (s% "v2_0.PathItem"))) }),
    (s% "definitions", { builder := (.mapOf (.cls (s% "v2_0.Schema"))) }),
    (s% "parameters", { builder := (.mapOf (.cls (s% "v2_0.Parameter"))) }),
    (s% "responses", { builder := (.mapOf (.cls (s% "v2_0.Response"))) }),
    (s% "securityDefinitions", { builder := (.mapOf (.cls (s% "v2_0.SecurityScheme"))) }),
    (s% "security", { builder := (.listOf (.listOf .isStr)) }),
    (s% "tags", { builder := (.listOf (.cls (s% "v2_0.Tag"))) }),
    (s% "externalDocs", { builder := (.cls (s% "v2_0.ExternalDocumentation")) })]

/-- v3_0_0/objects.py:14-19 `Reference`. -/
def v3_0_0_Reference : ClassDef where
  version := s% "3.0.0"
  fields := [
    (s% "$ref", { required := true, readonly := false })]

/-- v3_0_0/objects.py:60-65 `Contact`. -/
def v3_0_0_Contact : ClassDef where
  version := s% "3.0.0"
  fields := [
    (s% "name", { }),
    (s% "url", { }),
    (s% "email", { })]

/-- v3_0_0/objects.py:68-72 `License`. -/
def v3_0_0_License : ClassDef where
  version := s% "3.0.0"
  fields := [
    (s% "name", { required := true }),
    (s% "url", { })]

/-- v3_0_0/objects.py:75-90 `Info`. -/
def v3_0_0_Info : ClassDef where
  version := s% "3.0.0"
  fields := [
    (s% "title", { required := true }),
    (s% "description", { }),
    (s% "termsOfService", { }),
    (s% "version", { required := true })]
  children := [
    (s% "contact", { builder := (.cls (s% "v3_0_0.Contact")) }),
    (s% "license", { builder := (.cls (s% "v3_0_0.License")) })]

/-- v3_0_0/objects.py:93-103 `ServerVariable`. -/
def v3_0_0_ServerVariable : ClassDef where
  version := s% "3.0.0"
  fields := [
    (s% "default", { required := true }),
    (s% "description", { })]
  children := [
    (s% "enum", { builder := (.listOf .isStr) })]

/-- v3_0_0/objects.py:106-114 `Server`. -/
def v3_0_0_Server : ClassDef where
  version := s% "3.0.0"
  fields := [
    (s% "url", { required := true }),
    (s% "description", { })]
  children := [
    (s% "variables", { builder := (.mapOf (.cls (s% "v3_0_0.ServerVariable"))) })]

/-- v3_0_0/objects.py:117-127 `Example`. -/
def v3_0_0_Example : ClassDef where
  version := s% "3.0.0"
  fields := [
    (s% "summary", { }),
    (s% "description", { }),
    (s% "value", { }),
    (s% "externalValue", { })]

/-- v3_0_0/objects.py:133-140 `XML_`. -/
def v3_0_0_XML_ : ClassDef where
  version := s% "3.0.0"
  fields := [
    (s% "name", { }),
    (s% "namespace", { }),
    (s% "prefix", { }),
    (s% "attribute", { }),
    (s% "wrapped", { })]

/-- v3_0_0/objects.py:143-147 `ExternalDocumentation`. -/
def v3_0_0_ExternalDocumentation : ClassDef where
  version := s% "3.0.0"
  fields := [
    (s% "description", { }),
    (s% "url", { required := true })]

/-- v3_0_0/objects.py:150-161 `Discriminator`. -/
def v3_0_0_Discriminator : ClassDef where
  version := s% "3.0.0"
  fields := [
    (s% "propertyName", { })]
  children := [
    (s% "mapping", { builder := (.mapOf .isStr) })]

/-- v3_0_0/objects.py:164-223, 229-230, 231-232, 233-234, 235-235, 236-236, 237-238, 239-243 `Schema`. -/
def v3_0_0_Schema : ClassDef where
  version := s% "3.0.0"
  fields := [
    (s% "title", { }),
    (s% "multipleOf", { }),
    (s% "maximum", { }),
    (s% "exclusiveMaximum", { }),
    (s% "minimum", { }),
    (s% "exclusiveMinimum", { }),
    (s% "maxLength", { }),
    (s% "minLength", { }),
    (s% "pattern", { }),
    (s% "maxItems", { }),
    (s% "minItems", { }),
    (s% "uniqueItems", { }),
    (s% "maxProperties", { }),
    (s% "minProperties", { }),
    (s% "required", { }),
    (s% "enum", { }),
    (s% "type", { }),
    (s% "description", { }),
    (s% "format", { }),
    (s% "default", { }),
    (s% "nullable", { }),
    (s% "readOnly", { }),
    (s% "writeOnly", { }),
    (s% "example", { }),
    (s% "depreated", { })]
  children := [
    (s% "discriminator", { builder := (.cls (s% "v3_0_0.Discriminator")) }),
    (s% "xml", { builder := (.cls (s% "v3_0_0.XML_")) }),
    (s% "externalDocs", { builder := (.cls (s% "v3_0_0.ExternalDocumentation")) }),
    (s% "allOf", { builder := (.listOf (.ifNotRef (s% "v3_0_0.Reference") (.cls (s% "v3_0_0.Schema")))) }),
    (s% "oneOf", { builder := (.listOf (.ifNotRef (s% "v3_0_0.Reference") (.cls (s% "v3_0_0.Schema")))) }),
    (s% "anyOf", { builder := (.listOf (.ifNotRef (s% "v3_0_0.Reference") (.cls (s% "v3_0_0.Schema")))) }),
    (s% "not", { builder := (.ifNotRef (s% "v3_0_0.Reference") (.cls (s% "v3_0_0.Schema"))) }),
    (s% "items", { builder := (.ifNotRef (s% "v3_0_0.Reference") (.cls (s% "v3_0_0.Schema"))) }),
    (s% "properties", { builder := (.mapOf (.ifNotRef (s% "v3_0_0.Reference") (.cls (s% "v3_0_0.Schema")))) }),
    (s% "additionalProperties", { builder := (.ifNotBool (.ifNotRef (s% "v3_0_0.Reference") (.cls (s% "v3_0_0.Schema")))) })]

/-- v3_0_0/objects.py:246-269, 319-319 `Parameter`. -/
def v3_0_0_Parameter : ClassDef where
  version := s% "3.0.0"
  fields := [
    (s% "name", { required := true }),
    (s% "in", { required := true }),
    (s% "description", { }),
    (s% "required", { }),
    (s% "deprecated", { }),
    (s% "allowEmptyValue", { }),
    (s% "style", { }),
    (s% "explode", { }),
    (s% "allowReserved", { }),
    (s% "example", { })]
  children := [
    (s% "examples", { builder := (.mapOf (.ifNotRef (s% "v3_0_0.Reference") (.cls (s% "v3_0_0.Example")))) }),
    (s% "schema", { builder := (.ifNotRef (s% "v3_0_0.Reference") (.cls (s% "v3_0_0.Schema"))) }),
    (s% "content", { builder := (.mapOf (.cls (s% "v3_0_0.MediaType"))) })]

/-- v3_0_0/objects.py:275-283 `Header` (with the fields and children of `Parameter`). -/
def v3_0_0_Header : ClassDef where
  version := s% "3.0.0"
  fields := [
    (s% "name", { restricted := true }),
    (s% "in", { restricted := true, default := .str (s% "header") }),
    (s% "description", { }),
    (s% "required", { }),
    (s% "deprecated", { }),
    (s% "allowEmptyValue", { }),
    (s% "style", { }),
    (s% "explode", { }),
    (s% "allowReserved", { }),
    (s% "example", { })]
  children := [
    (s% "examples", { builder := (.mapOf (.ifNotRef (s% "v3_0_0.Reference") (.cls (s% "v3_0_0.Example")))) }),
    (s% "schema", { builder := (.ifNotRef (s% "v3_0_0.Reference") (.cls (s% "v3_0_0.Schema"))) })]

/-- v3_0_0/objects.py:289-304 `Encoding`. -/
def v3_0_0_Encoding : ClassDef where
  version := s% "3.0.0"
  fields := [
    (s% "contentType", { }),
    (s% "stype", { }),
    (s% "explode", { }),
    (s% "allowReserved", { })]
  children := [
    (s% "headers", { builder := (.mapOf (.ifNotRef (s% "v3_0_0.Reference") (.cls (s% "v3_0_0.Header")))) })]

/-- v3_0_0/objects.py:307-316 `MediaType`. -/
def v3_0_0_MediaType : ClassDef where
  version := s% "3.0.0"
  fields := [
    (s% "example", { })]
  children := [
    (s% "schema", { builder := (.ifNotRef (s% "v3_0_0.Reference") (.cls (s% "v3_0_0.Schema"))) }),
    (s% "examples", { builder := (.ifNotRef (s% "v3_0_0.Reference") (.cls (s% "v3_0_0.Example"))) }),
    (s% "encoding", { builder := (.mapOf (.cls (s% "v3_0_0.Encoding"))) })]

/-- v3_0_0/objects.py:322-330 `RequestBody`. -/
def v3_0_0_RequestBody : ClassDef where
  version := s% "3.0.0"
  fields := [
    (s% "description", { }),
    (s% "required", { })]
  children := [
    (s% "content", { builder := (.mapOf (.cls (s% "v3_0_0.MediaType"))), required := true })]

/-- v3_0_0/objects.py:336-353 `Link`. -/
def v3_0_0_Link : ClassDef where
  version := s% "3.0.0"
  fields := [
    (s% "operationRef", { }),
    (s% "operationId", { }),
    (s% "requestBody", { }),
    (s% "description", { })]
  children := [
    (s% "server", { builder := (.cls (s% "v3_0_0.Server")) }),
    (s% "parameters", { builder := (.mapOf .isStr) })]

/-- v3_0_0/objects.py:359-368 `Response`. -/
def v3_0_0_Response : ClassDef where
  version := s% "3.0.0"
  fields := [
    (s% "description", { required := true })]
  children := [
    (s% "headers", { builder := (.mapOf (.ifNotRef (s% "v3_0_0.Reference") (.cls (s% "v3_0_0.Header")))) }),
    (s% "content", { builder := (.mapOf (.cls (s% "v3_0_0.MediaType"))) }),
    (s% "links", { builder := (.mapOf (.ifNotRef (s% "v3_0_0.Reference") (.cls (s% "v3_0_0.Link")))) })]

/-- v3_0_0/objects.py:374-389 `OAuthFlow`. -/
def v3_0_0_OAuthFlow : ClassDef where
  version := s% "3.0.0"
  fields := [
    (s% "authorizationUrl", { }),
    (s% "tokenUrl", { }),
    (s% "refreshUrl", { })]
  children := [
    (s% "scopes", { builder := (.mapOf .isStr), required := true })]

/-- v3_0_0/objects.py:392-403 `OAuthFlows`. -/
def v3_0_0_OAuthFlows : ClassDef where
  version := s% "3.0.0"
  children := [
    (s% "implicit", { builder := (.cls (s% "v3_0_0.OAuthFlow")) }),
    (s% "password", { builder := (.cls (s% "v3_0_0.OAuthFlow")) }),
    (s% "clientCredentials", { builder := (.cls (s% "v3_0_0.OAuthFlow")) }),
    (s% "authorizationCode", { builder := (.cls (s% "v3_0_0.OAuthFlow")) })]

/-- v3_0_0/objects.py:406-426 `SecurityScheme`. -/
def v3_0_0_SecurityScheme : ClassDef where
  version := s% "3.0.0"
  fields := [
    (s% "type", { required := true }),
    (s% "description", { }),
    (s% "name", { }),
    (s% "in", { }),
    (s% "scheme", { }),
    (s% "bearerFormat", { }),
    (s% "openIdConnectUrl", { })]
  children := [
    (s% "flows", { builder := (.cls (s% "v3_0_0.OAuthFlows")) })]

/-- v3_0_0/objects.py:432-454, 494-495 `Operation`. -/
def v3_0_0_Operation : ClassDef where
  version := s% "3.0.0"
  fields := [
    (s% "summary", { }),
    (s% "description", { }),
    (s% "operationId", { }),
    (s% "deprecated", { })]
  children := [
    (s% "externalDocs", { builder := (.cls (s% "v3_0_0.ExternalDocumentation")) }),
    (s% "tags", { builder := (.listOf .isStr) }),
    (s% "parameters", { builder := (.listOf (.ifNotRef (s% "v3_0_0.Reference") (.cls (s% "v3_0_0.Parameter")))) }),
    (s% "requestBody", { builder := (.ifNotRef (s% "v3_0_0.Reference") (.cls (s% "v3_0_0.RequestBody"))) }),
    (s% "responses", { builder := (.mapOf (.ifNotRef (s% "v3_0_0.Reference") (.cls (s% "v3_0_0.Response")))) }),
    (s% "security", { builder := (.listOf (.mapOf (.listOf .isStr))) }),
    (s% "servers", { builder := (.listOf (.cls (s% "v3_0_0.Server"))) }),
    (s% "callbacks", { builder := (.mapOf (.ifNotRef (s% "v3_0_0.Reference") (.mapOf (.cls (s% "v3_0_0.PathItem"))))) })]

/-- v3_0_0/objects.py:457-486 `PathItem`. -/
def v3_0_0_PathItem : ClassDef where
  version := s% "3.0.0"
  fields := [
    (s% "$ref", { readonly := false }),
    (s% "summary", { }),
    (s% "description", { })]
  children := [
    (s% "get", { builder := (.cls (s% "v3_0_0.Operation")) }),
    (s% "put", { builder := (.cls (s% "v3_0_0.Operation")) }),
    (s% "post", { builder := (.cls (s% "v3_0_0.Operation")) }),
    (s% "delete", { builder := (.cls (s% "v3_0_0.Operation")) }),
    (s% "options", { builder := (.cls (s% "v3_0_0.Operation")) }),
    (s% "head", { builder := (.cls (s% "v3_0_0.Operation")) }),
    (s% "patch", { builder := (.cls (s% "v3_0_0.Operation")) }),
    (s% "trace", { builder := (.cls (s% "v3_0_0.Operation")) }),
    (s% "servers", { builder := (.listOf (.cls (s% "v3_0_0.Server"))) }),
    (s% "parameters", { builder := (.listOf (.ifNotRef (s% "v3_0_0.Reference") (.cls (s% "v3_0_0.Parameter")))) }),
    (s% "x-pyopenapi_internal_request_body", { builder := (.cls (s% "v3_0_0.RequestBody")) })]

/-- v3_0_0/objects.py:498-514 `Components`. -/
def v3_0_0_Components : ClassDef where
  version := s% "3.0.0"
  children := [
    (s% "schemas", { builder := (.mapOf (.ifNotRef (s% "v3_0_0.Reference") (.cls (s% "v3_0_0.Schema")))) }),
    (s% "responses", { builder := (.mapOf (.ifNotRef (s% "v3_0_0.Reference") (.cls (s% "v3_0_0.Response")))) }),
    (s% "parameters", { builder := (.mapOf (.ifNotRef (s% "v3_0_0.Reference") (.cls (s% "v3_0_0.Parameter")))) }),
    (s% "examples", { builder := (.mapOf (.ifNotRef (s% "v3_0_0.Reference") (.cls (s% "v3_0_0.Example")))) }),
    (s% "requestBodies", { builder := (.mapOf (.ifNotRef (s% "v3_0_0.Reference") (.cls (s% "v3_0_0.RequestBody")))) }),
    (s% "headers", { builder := (.mapOf (.ifNotRef (s% "v3_0_0.Reference") (.cls (s% "v3_0_0.Header")))) }),
    (s% "securitySchemes", { builder := (.mapOf (.ifNotRef (s% "v3_0_0.Reference") (.cls (s% "v3_0_0.SecurityScheme")))) }),
    (s% "links", { builder := (.mapOf (.ifNotRef (s% "v3_0_0.Reference") (.cls (s% "v3_0_0.Link")))) }),
    (s% "callbacks", { builder := (.mapOf (.ifNotRef (s% "v3_0_0.Reference") (.mapOf (.cls (s% "v3_0_0.PathItem"))))) })]

/-- v3_0_0/objects.py:517-529 `Tag`. -/
def v3_0_0_Tag : ClassDef where
  version := s% "3.0.0"
  fields := [
    (s% "name", { required := true }),
    (s% "description", { })]
  children := [
    (s% "externalDocs", { builder := (.cls (s% "v3_0_0.ExternalDocumentation")) })]

/-- v3_0_0/objects.py:532-549 `OpenApi`. -/
def v3_0_0_OpenApi : ClassDef where
  version := s% "3.0.0"
  fields := [
    (s% "openapi", { })]
  children := [
    (s% "info", { builder := (.cls (s% "v3_0_0.Info")) }),
    (s% "servers", { builder := (.listOf (.cls (s% "v3_0_0.Server"))) }),
    (s% "paths", { builder := (.mapOf (.cls (s% "v3_0_0.PathItem"))) }),
    (s% "components", { builder := (.cls (s% "v3_0_0.Components")) }),
    (s% "security", { builder := (.listOf (.mapOf (.listOf .isStr))) }),
    (s% "tags", { builder := (.listOf (.cls (s% "v3_0_0.Tag"))) }),
    (s% "externalDocs", { builder := (.cls (s% "v3_0_0.ExternalDocumentation")) })]

/-- Every class of the package, by module and name. -/
def classes : Dict ClassDef := [
  (s% "v1_2.Items", v1_2_Items),
  (s% "v1_2.DataTypeObj", v1_2_DataTypeObj),
  (s% "v1_2.Scope", v1_2_Scope),
  (s% "v1_2.LoginEndpoint", v1_2_LoginEndpoint),
  (s% "v1_2.Implicit", v1_2_Implicit),
  (s% "v1_2.TokenRequestEndpoint", v1_2_TokenRequestEndpoint),
  (s% "v1_2.TokenEndpoint", v1_2_TokenEndpoint),
  (s% "v1_2.AuthorizationCode", v1_2_AuthorizationCode),
  (s% "v1_2.GrantTypes", v1_2_GrantTypes),
  (s% "v1_2.Authorizations", v1_2_Authorizations),
  (s% "v1_2.Authorization", v1_2_Authorization),
  (s% "v1_2.ResponseMessage", v1_2_ResponseMessage),
  (s% "v1_2.Parameter", v1_2_Parameter),
  (s% "v1_2.Operation", v1_2_Operation),
  (s% "v1_2.Api", v1_2_Api),
  (s% "v1_2.Property", v1_2_Property),
  (s% "v1_2.Model", v1_2_Model),
  (s% "v1_2.ApiDeclaration", v1_2_ApiDeclaration),
  (s% "v1_2.Info", v1_2_Info),
  (s% "v1_2.ResourceInListing", v1_2_ResourceInListing),
  (s% "v1_2.ResourceListing", v1_2_ResourceListing),
  (s% "v2_0.Reference", v2_0_Reference),
  (s% "v2_0.XMLObject", v2_0_XMLObject),
  (s% "v2_0.ExternalDocumentation", v2_0_ExternalDocumentation),
  (s% "v2_0.Tag", v2_0_Tag),
  (s% "v2_0.BaseSchema", v2_0_BaseSchema),
  (s% "v2_0.Items", v2_0_Items),
  (s% "v2_0.Schema", v2_0_Schema),
  (s% "v2_0.Contact", v2_0_Contact),
  (s% "v2_0.License", v2_0_License),
  (s% "v2_0.Info", v2_0_Info),
  (s% "v2_0.Parameter", v2_0_Parameter),
  (s% "v2_0.Header", v2_0_Header),
  (s% "v2_0.Response", v2_0_Response),
  (s% "v2_0.Operation", v2_0_Operation),
  (s% "v2_0.PathItem", v2_0_PathItem),
  (s% "v2_0.SecurityScheme", v2_0_SecurityScheme),
  (s% "v2_0.Swagger", v2_0_Swagger),
  (s% "v3_0_0.Reference", v3_0_0_Reference),
  (s% "v3_0_0.Contact", v3_0_0_Contact),
  (s% "v3_0_0.License", v3_0_0_License),
  (s% "v3_0_0.Info", v3_0_0_Info),
  (s% "v3_0_0.ServerVariable", v3_0_0_ServerVariable),
  (s% "v3_0_0.Server", v3_0_0_Server),
  (s% "v3_0_0.Example", v3_0_0_Example),
  (s% "v3_0_0.XML_", v3_0_0_XML_),
  (s% "v3_0_0.ExternalDocumentation", v3_0_0_ExternalDocumentation),
  (s% "v3_0_0.Discriminator", v3_0_0_Discriminator),
  (s% "v3_0_0.Schema", v3_0_0_Schema),
  (s% "v3_0_0.Parameter", v3_0_0_Parameter),
  (s% "v3_0_0.Header", v3_0_0_Header),
  (s% "v3_0_0.Encoding", v3_0_0_Encoding),
  (s% "v3_0_0.MediaType", v3_0_0_MediaType),
  (s% "v3_0_0.RequestBody", v3_0_0_RequestBody),
  (s% "v3_0_0.Link", v3_0_0_Link),
  (s% "v3_0_0.Response", v3_0_0_Response),
  (s% "v3_0_0.OAuthFlow", v3_0_0_OAuthFlow),
  (s% "v3_0_0.OAuthFlows", v3_0_0_OAuthFlows),
  (s% "v3_0_0.SecurityScheme", v3_0_0_SecurityScheme),
  (s% "v3_0_0.Operation", v3_0_0_Operation),
  (s% "v3_0_0.PathItem", v3_0_0_PathItem),
  (s% "v3_0_0.Components", v3_0_0_Components),
  (s% "v3_0_0.Tag", v3_0_0_Tag),
  (s% "v3_0_0.OpenApi", v3_0_0_OpenApi)]

/-- The table of the package (an unknown name has no field and no child). -/
def pkg : Table := fun c => (Dict.get? classes c).getD ⟨[], [], []⟩

end Pyopenapi
