import Verif.Model.Meta

/-!
# The statements of versions/v1_2, v2_0, v3_0_0 objects.py that make classes

Generated by /verif/tools/gen_tables.py from the source text: what each class statement itself declares, its base, and the
calls of `attach_field`.  The bases `Base2` (obj.py:742) declare nothing and are left out.
-/

namespace Pyopenapi

/-- The class statements and the calls of `attach_field` of versions/v1_2/objects.py, in their order. -/
def v1_2_statements : List Meta.Statement := [
  /- 8-9 -/
  .class_ (s% "v1_2.BaseObj_v1_2") [] {
    version := s% "1.2"
    fields := []
    children := [] },
  /- 12-25 -/
  .class_ (s% "v1_2.Items") [s% "v1_2.BaseObj_v1_2"] {
    version := s% "1.2"
    fields := [(s% "$ref", { }),
      (s% "type", { }),
      (s% "format", { })]
    children := [] },
  /- 28-52 -/
  .class_ (s% "v1_2.DataTypeObj") [s% "v1_2.BaseObj_v1_2"] {
    version := s% "1.2"
    fields := [(s% "type", { }),
      (s% "$ref", { }),
      (s% "format", { }),
      (s% "defaultValue", { }),
      (s% "enum", { }),
      (s% "minimum", { }),
      (s% "maximum", { }),
      (s% "uniqueItems", { })]
    children := [(s% "items", { builder := (.cls (s% "v1_2.Items")) })] },
  /- 55-62 -/
  .class_ (s% "v1_2.Scope") [s% "v1_2.BaseObj_v1_2"] {
    version := s% "1.2"
    fields := [(s% "scope", { required := true }),
      (s% "description", { })]
    children := [] },
  /- 65-71 -/
  .class_ (s% "v1_2.LoginEndpoint") [s% "v1_2.BaseObj_v1_2"] {
    version := s% "1.2"
    fields := [(s% "url", { required := true })]
    children := [] },
  /- 74-89 -/
  .class_ (s% "v1_2.Implicit") [s% "v1_2.BaseObj_v1_2"] {
    version := s% "1.2"
    fields := [(s% "tokenName", { })]
    children := [(s% "loginEndpoint", { builder := (.cls (s% "v1_2.LoginEndpoint")), required := true })] },
  /- 92-105 -/
  .class_ (s% "v1_2.TokenRequestEndpoint") [s% "v1_2.BaseObj_v1_2"] {
    version := s% "1.2"
    fields := [(s% "url", { required := true }),
      (s% "clientIdName", { }),
      (s% "clientSecretName", { })]
    children := [] },
  /- 108-119 -/
  .class_ (s% "v1_2.TokenEndpoint") [s% "v1_2.BaseObj_v1_2"] {
    version := s% "1.2"
    fields := [(s% "url", { required := true }),
      (s% "tokenName", { })]
    children := [] },
  /- 122-135 -/
  .class_ (s% "v1_2.AuthorizationCode") [s% "v1_2.BaseObj_v1_2"] {
    version := s% "1.2"
    fields := []
    children := [(s% "tokenRequestEndpoint", { builder := (.cls (s% "v1_2.TokenRequestEndpoint")) }),
      (s% "tokenEndpoint", { builder := (.cls (s% "v1_2.TokenEndpoint")) })] },
  /- 138-145 -/
  .class_ (s% "v1_2.GrantTypes") [s% "v1_2.BaseObj_v1_2"] {
    version := s% "1.2"
    fields := []
    children := [(s% "implicit", { builder := (.cls (s% "v1_2.Implicit")) }),
      (s% "authorization_code", { builder := (.cls (s% "v1_2.AuthorizationCode")) })] },
  /- 148-155 -/
  .class_ (s% "v1_2.Authorizations") [s% "v1_2.BaseObj_v1_2"] {
    version := s% "1.2"
    fields := [(s% "scope", { }),
      (s% "description", { })]
    children := [] },
  /- 158-177 -/
  .class_ (s% "v1_2.Authorization") [s% "v1_2.BaseObj_v1_2"] {
    version := s% "1.2"
    fields := [(s% "type", { }),
      (s% "passAs", { }),
      (s% "keyname", { })]
    children := [(s% "scopes", { builder := (.listOf (.cls (s% "v1_2.Scope"))) }),
      (s% "grantTypes", { builder := (.cls (s% "v1_2.GrantTypes")) })] },
  /- 180-192 -/
  .class_ (s% "v1_2.ResponseMessage") [s% "v1_2.BaseObj_v1_2"] {
    version := s% "1.2"
    fields := [(s% "code", { required := true }),
      (s% "message", { required := true }),
      (s% "responseModel", { })]
    children := [] },
  /- 195-210 -/
  .class_ (s% "v1_2.Parameter") [s% "v1_2.DataTypeObj"] {
    version := s% "1.2"
    fields := [(s% "paramType", { required := true }),
      (s% "name", { required := true }),
      (s% "description", { }),
      (s% "required", { }),
      (s% "allowMultiple", { })]
    children := [] },
  /- 213-235 -/
  .class_ (s% "v1_2.Operation") [s% "v1_2.DataTypeObj"] {
    version := s% "1.2"
    fields := [(s% "method", { required := true }),
      (s% "summary", { }),
      (s% "notes", { }),
      (s% "nickname", { required := true }),
      (s% "produces", { }),
      (s% "consumes", { }),
      (s% "deprecated", { })]
    children := [(s% "authorizations", { builder := (.mapOf (.listOf (.cls (s% "v1_2.Authorizations")))) }),
      (s% "parameters", { builder := (.listOf (.cls (s% "v1_2.Parameter"))) }),
      (s% "responseMessages", { builder := (.listOf (.cls (s% "v1_2.ResponseMessage"))) })] },
  /- 238-249 -/
  .class_ (s% "v1_2.Api") [s% "v1_2.BaseObj_v1_2"] {
    version := s% "1.2"
    fields := [(s% "path", { required := true }),
      (s% "description", { })]
    children := [(s% "operations", { builder := (.listOf (.cls (s% "v1_2.Operation"))) })] },
  /- 252-258 -/
  .class_ (s% "v1_2.Property") [s% "v1_2.DataTypeObj"] {
    version := s% "1.2"
    fields := [(s% "description", { })]
    children := [] },
  /- 261-280 -/
  .class_ (s% "v1_2.Model") [s% "v1_2.BaseObj_v1_2"] {
    version := s% "1.2"
    fields := [(s% "id", { required := true }),
      (s% "description", { }),
      (s% "required", { }),
      (s% "subTypes", { }),
      (s% "discriminator", { })]
    children := [(s% "properties", { builder := (.mapOf (.cls (s% "v1_2.Property"))), required := true })] },
  /- 283-309 -/
  .class_ (s% "v1_2.ApiDeclaration") [s% "v1_2.BaseObj_v1_2"] {
    version := s% "1.2"
    fields := [(s% "swaggerVersion", { required := true }),
      (s% "apiVersion", { }),
      (s% "basePath", { required := true }),
      (s% "resourcePath", { }),
      (s% "produces", { }),
      (s% "consumes", { }),
      (s% "description", { })]
    children := [(s% "apis", { builder := (.listOf (.cls (s% "v1_2.Api"))), required := true }),
      (s% "models", { builder := (.mapOf (.cls (s% "v1_2.Model"))) }),
      (s% "authorizations", { builder := (.mapOf (.listOf (.cls (s% "v1_2.Authorizations")))) })] },
  /- 312-328 -/
  .class_ (s% "v1_2.Info") [s% "v1_2.BaseObj_v1_2"] {
    version := s% "1.2"
    fields := [(s% "title", { required := true }),
      (s% "description", { required := true }),
      (s% "termsOfServiceUrl", { }),
      (s% "contact", { }),
      (s% "license", { }),
      (s% "licenseUrl", { })]
    children := [] },
  /- 331-337 -/
  .class_ (s% "v1_2.ResourceInListing") [s% "v1_2.BaseObj_v1_2"] {
    version := s% "1.2"
    fields := [(s% "path", { }),
      (s% "description", { })]
    children := [] },
  /- 340-358 -/
  .class_ (s% "v1_2.ResourceListing") [s% "v1_2.BaseObj_v1_2"] {
    version := s% "1.2"
    fields := [(s% "swaggerVersion", { required := true }),
      (s% "apiVersion", { })]
    children := [(s% "apis", { builder := (.listOf (.cls (s% "v1_2.ResourceInListing"))) }),
      (s% "info", { builder := (.cls (s% "v1_2.Info")) }),
      (s% "authorizations", { builder := (.mapOf (.cls (s% "v1_2.Authorization"))) })] }]

/-- The class statements and the calls of `attach_field` of versions/v2_0/objects.py, in their order. -/
def v2_0_statements : List Meta.Statement := [
  /- 39-40 -/
  .class_ (s% "v2_0.BaseObj_v2_0") [] {
    version := s% "2.0"
    fields := []
    children := [] },
  /- 43-52 -/
  .class_ (s% "v2_0.Reference") [s% "v2_0.BaseObj_v2_0"] {
    version := s% "2.0"
    fields := [(s% "$ref", { readonly := false })]
    children := [] },
  /- 55-64 -/
  .class_ (s% "v2_0.XMLObject") [s% "v2_0.BaseObj_v2_0"] {
    version := s% "2.0"
    fields := [(s% "name", { }),
      (s% "namespace", { }),
      (s% "prefix", { }),
      (s% "attribute", { }),
      (s% "wrapped", { })]
    children := [] },
  /- 67-74 -/
  .class_ (s% "v2_0.ExternalDocumentation") [s% "v2_0.BaseObj_v2_0"] {
    version := s% "2.0"
    fields := [(s% "description", { }),
      (s% "url", { })]
    children := [] },
  /- 77-91 -/
  .class_ (s% "v2_0.Tag") [s% "v2_0.BaseObj_v2_0"] {
    version := s% "2.0"
    fields := [(s% "name", { }),
      (s% "description", { })]
    children := [(s% "externalDocs", { builder := (.cls (s% "v2_0.ExternalDocumentation")) })] },
  /- 94-127 -/
  .class_ (s% "v2_0.BaseSchema") [s% "v2_0.BaseObj_v2_0"] {
    version := s% "2.0"
    fields := [(s% "type", { }),
      (s% "format", { }),
      (s% "default", { }),
      (s% "maximum", { }),
      (s% "exclusiveMaximum", { }),
      (s% "minimum", { }),
      (s% "exclusiveMinimum", { }),
      (s% "maxLength", { }),
      (s% "minLength", { }),
      (s% "maxItems", { }),
      (s% "minItems", { }),
      (s% "multipleOf", { }),
      (s% "enum", { }),
      (s% "pattern", { }),
      (s% "uniqueItems", { })]
    children := [] },
  /- 130-140 -/
  .class_ (s% "v2_0.Items") [s% "v2_0.BaseSchema"] {
    version := s% "2.0"
    fields := [(s% "collectionFormat", { default := .str (s% "csv") })]
    children := [] },
  /- 143-143 -/
  .attach (s% "v2_0.Items") (s% "items") { builder := (.cls (s% "v2_0.Items")) },
  /- 146-175 -/
  .class_ (s% "v2_0.Schema") [s% "v2_0.BaseSchema"] {
    version := s% "2.0"
    fields := [(s% "$ref", { readonly := false }),
      (s% "maxProperties", { }),
      (s% "minProperties", { }),
      (s% "title", { }),
      (s% "description", { }),
      (s% "discriminator", { }),
      (s% "readOnly", { }),
      (s% "example", { }),
      (s% "required", { default := .arr [] })]
    children := [(s% "xml", { builder := (.cls (s% "v2_0.XMLObject")) }),
      (s% "externalDocs", { builder := (.cls (s% "v2_0.ExternalDocumentation")) })] },
  /- 180-180 -/
  .attach (s% "v2_0.Schema") (s% "items") { builder := (.cls (s% "v2_0.Schema")) },
  /- 181-181 -/
  .attach (s% "v2_0.Schema") (s% "allOf") { builder := (.listOf (.cls (s% "v2_0.Schema"))) },
  /- 182-182 -/
  .attach (s% "v2_0.Schema") (s% "properties") { builder := (.mapOf (.cls (s% "v2_0.Schema"))) },
  /- 183-184 -/
  .attach (s% "v2_0.Schema") (s% "additionalProperties") { builder := (.ifNotBool (.cls (s% "v2_0.Schema"))) },
  /- 187-194 -/
  .class_ (s% "v2_0.Contact") [s% "v2_0.BaseObj_v2_0"] {
    version := s% "2.0"
    fields := [(s% "name", { }),
      (s% "url", { }),
      (s% "email", { })]
    children := [] },
  /- 197-203 -/
  .class_ (s% "v2_0.License") [s% "v2_0.BaseObj_v2_0"] {
    version := s% "2.0"
    fields := [(s% "name", { }),
      (s% "url", { })]
    children := [] },
  /- 206-223 -/
  .class_ (s% "v2_0.Info") [s% "v2_0.BaseObj_v2_0"] {
    version := s% "2.0"
    fields := [(s% "version", { }),
      (s% "title", { }),
      (s% "description", { }),
      (s% "termsOfService", { })]
    children := [(s% "contact", { builder := (.cls (s% "v2_0.Contact")) }),
      (s% "license", { builder := (.cls (s% "v2_0.License")) })] },
  /- 226-247 -/
  .class_ (s% "v2_0.Parameter") [s% "v2_0.BaseSchema"] {
    version := s% "2.0"
    fields := [(s% "name", { }),
      (s% "in", { }),
      (s% "required", { }),
      (s% "collectionFormat", { default := .str (s% "csv") }),
      (s% "description", { }),
      (s% "allowEmptyValue", { })]
    children := [(s% "schema", { builder := (.cls (s% "v2_0.Schema")) }),
      (s% "items", { builder := (.cls (s% "v2_0.Items")) })] },
  /- 253-267 -/
  .class_ (s% "v2_0.Header") [s% "v2_0.BaseSchema"] {
    version := s% "2.0"
    fields := [(s% "collectionFormat", { default := .str (s% "csv") }),
      (s% "description", { })]
    children := [(s% "items", { builder := (.cls (s% "v2_0.Items")) })] },
  /- 270-281 -/
  .class_ (s% "v2_0.Response") [s% "v2_0.BaseObj_v2_0"] {
    version := s% "2.0"
    fields := [(s% "description", { }),
      (s% "examples", { })]
    children := [(s% "schema", { builder := (.cls (s% "v2_0.Schema")) }),
      (s% "headers", { builder := (.mapOf (.cls (s% "v2_0.Header"))) })] },
  /- 288-320 -/
  .class_ (s% "v2_0.Operation") [s% "v2_0.BaseObj_v2_0"] {
    version := s% "2.0"
    fields := [(s% "operationId", { }),
      (s% "deprecated", { }),
      (s% "description", { }),
      (s% "summary", { })]
    children := [(s% "tags", { builder := (.listOf .isStr) }),
      (s% "consumes", { builder := (.listOf .isStr) }),
      (s% "produces", { builder := (.listOf .isStr) }),
      (s% "schemes", { builder := (.listOf .isStr) }),
      (s% "parameters", { builder := (.listOf (.ifNotRef (s% "v2_0.Reference") (.cls (s% "v2_0.Parameter")))) }),
      (s% "responses", { builder := (.mapOf (.ifNotRef (s% "v2_0.Reference") (.cls (s% "v2_0.Response")))) }),
      (s% "security", { builder := (.listOf (.mapOf (.listOf .isStr))) }),
      (s% "externalDocs", { builder := (.cls (s% "v2_0.ExternalDocumentation")) })] },
  /- 323-343 -/
  .class_ (s% "v2_0.PathItem") [s% "v2_0.BaseObj_v2_0"] {
    version := s% "2.0"
    fields := [(s% "$ref", { readonly := false })]
    children := [(s% "get", { builder := (.cls (s% "v2_0.Operation")) }),
      (s% "put", { builder := (.cls (s% "v2_0.Operation")) }),
      (s% "post", { builder := (.cls (s% "v2_0.Operation")) }),
      (s% "delete", { builder := (.cls (s% "v2_0.Operation")) }),
      (s% "options", { builder := (.cls (s% "v2_0.Operation")) }),
      (s% "head", { builder := (.cls (s% "v2_0.Operation")) }),
      (s% "patch", { builder := (.cls (s% "v2_0.Operation")) }),
      (s% "parameters", { builder := (.listOf (.ifNotRef (s% "v2_0.Reference") (.cls (s% "v2_0.Parameter")))) })] },
  /- 346-364 -/
  .class_ (s% "v2_0.SecurityScheme") [s% "v2_0.BaseObj_v2_0"] {
    version := s% "2.0"
    fields := [(s% "type", { }),
      (s% "description", { }),
      (s% "name", { }),
      (s% "in", { }),
      (s% "flow", { }),
      (s% "authorizationUrl", { }),
      (s% "tokenUrl", { })]
    children := [(s% "scopes", { builder := (.mapOf .isStr) })] },
  /- 367-396 -/
  .class_ (s% "v2_0.Swagger") [s% "v2_0.BaseObj_v2_0"] {
    version := s% "2.0"
    fields := [(s% "swagger", { }),
      (s% "host", { }),
      (s% "basePath", { })]
    children := [(s% "info", { builder := (.cls (s% "v2_0.Info")) }),
      (s% "schemes", { builder := (.listOf .isStr) }),
      (s% "consumes", { builder := (.listOf .isStr) }),
      (s% "produces", { builder := (.listOf .isStr) }),
      (s% "paths", { builder := (.mapOf (.cls (s% "v2_0.PathItem"))) }),
      (s% "definitions", { builder := (.mapOf (.cls (s% "v2_0.Schema"))) }),
      (s% "parameters", { builder := (.mapOf (.cls (s% "v2_0.Parameter"))) }),
      (s% "responses", { builder := (.mapOf (.cls (s% "v2_0.Response"))) }),
      (s% "securityDefinitions", { builder := (.mapOf (.cls (s% "v2_0.SecurityScheme"))) }),
      (s% "security", { builder := (.listOf (.listOf .isStr)) }),
      (s% "tags", { builder := (.listOf (.cls (s% "v2_0.Tag"))) }),
      (s% "externalDocs", { builder := (.cls (s% "v2_0.ExternalDocumentation")) })] }]

/-- The class statements and the calls of `attach_field` of versions/v3_0_0/objects.py, in their order. -/
def v3_0_0_statements : List Meta.Statement := [
  /- 10-11 -/
  .class_ (s% "v3_0_0.Base2_v3_0_0") [] {
    version := s% "3.0.0"
    fields := []
    children := [] },
  /- 14-19 -/
  .class_ (s% "v3_0_0.Reference") [s% "v3_0_0.Base2_v3_0_0"] {
    version := s% "3.0.0"
    fields := [(s% "$ref", { required := true, readonly := false })]
    children := [] },
  /- 60-65 -/
  .class_ (s% "v3_0_0.Contact") [s% "v3_0_0.Base2_v3_0_0"] {
    version := s% "3.0.0"
    fields := [(s% "name", { }),
      (s% "url", { }),
      (s% "email", { })]
    children := [] },
  /- 68-72 -/
  .class_ (s% "v3_0_0.License") [s% "v3_0_0.Base2_v3_0_0"] {
    version := s% "3.0.0"
    fields := [(s% "name", { required := true }),
      (s% "url", { })]
    children := [] },
  /- 75-90 -/
  .class_ (s% "v3_0_0.Info") [s% "v3_0_0.Base2_v3_0_0"] {
    version := s% "3.0.0"
    fields := [(s% "title", { required := true }),
      (s% "description", { }),
      (s% "termsOfService", { }),
      (s% "version", { required := true })]
    children := [(s% "contact", { builder := (.cls (s% "v3_0_0.Contact")) }),
      (s% "license", { builder := (.cls (s% "v3_0_0.License")) })] },
  /- 93-103 -/
  .class_ (s% "v3_0_0.ServerVariable") [s% "v3_0_0.Base2_v3_0_0"] {
    version := s% "3.0.0"
    fields := [(s% "default", { required := true }),
      (s% "description", { })]
    children := [(s% "enum", { builder := (.listOf .isStr) })] },
  /- 106-114 -/
  .class_ (s% "v3_0_0.Server") [s% "v3_0_0.Base2_v3_0_0"] {
    version := s% "3.0.0"
    fields := [(s% "url", { required := true }),
      (s% "description", { })]
    children := [(s% "variables", { builder := (.mapOf (.cls (s% "v3_0_0.ServerVariable"))) })] },
  /- 117-127 -/
  .class_ (s% "v3_0_0.Example") [s% "v3_0_0.Base2_v3_0_0"] {
    version := s% "3.0.0"
    fields := [(s% "summary", { }),
      (s% "description", { }),
      (s% "value", { }),
      (s% "externalValue", { })]
    children := [] },
  /- 133-140 -/
  .class_ (s% "v3_0_0.XML_") [s% "v3_0_0.Base2_v3_0_0"] {
    version := s% "3.0.0"
    fields := [(s% "name", { }),
      (s% "namespace", { }),
      (s% "prefix", { }),
      (s% "attribute", { }),
      (s% "wrapped", { })]
    children := [] },
  /- 143-147 -/
  .class_ (s% "v3_0_0.ExternalDocumentation") [s% "v3_0_0.Base2_v3_0_0"] {
    version := s% "3.0.0"
    fields := [(s% "description", { }),
      (s% "url", { required := true })]
    children := [] },
  /- 150-161 -/
  .class_ (s% "v3_0_0.Discriminator") [s% "v3_0_0.Base2_v3_0_0"] {
    version := s% "3.0.0"
    fields := [(s% "propertyName", { })]
    children := [(s% "mapping", { builder := (.mapOf .isStr) })] },
  /- 164-223 -/
  .class_ (s% "v3_0_0.Schema") [s% "v3_0_0.Base2_v3_0_0"] {
    version := s% "3.0.0"
    fields := [(s% "title", { }),
      (s% "multipleOf", { }),
      (s% "maximum", { }),
      (s% "exclusiveMaximum", { }),
      (s% "minimum", { }),
      (s% "exclusiveMinimum", { }),
      (s% "maxLength", { }),
      (s% "minLength", { }),
      (s% "pattern", { }),
      (s% "maxItems", { }),
      (s% "minItems", { }),
      (s% "uniqueItems", { }),
      (s% "maxProperties", { }),
      (s% "minProperties", { }),
      (s% "required", { }),
      (s% "enum", { }),
      (s% "type", { }),
      (s% "description", { }),
      (s% "format", { }),
      (s% "default", { }),
      (s% "nullable", { }),
      (s% "readOnly", { }),
      (s% "writeOnly", { }),
      (s% "example", { }),
      (s% "depreated", { })]
    children := [(s% "discriminator", { builder := (.cls (s% "v3_0_0.Discriminator")) }),
      (s% "xml", { builder := (.cls (s% "v3_0_0.XML_")) }),
      (s% "externalDocs", { builder := (.cls (s% "v3_0_0.ExternalDocumentation")) })] },
  /- 229-230 -/
  .attach (s% "v3_0_0.Schema") (s% "allOf") { builder := (.listOf (.ifNotRef (s% "v3_0_0.Reference") (.cls (s% "v3_0_0.Schema")))) },
  /- 231-232 -/
  .attach (s% "v3_0_0.Schema") (s% "oneOf") { builder := (.listOf (.ifNotRef (s% "v3_0_0.Reference") (.cls (s% "v3_0_0.Schema")))) },
  /- 233-234 -/
  .attach (s% "v3_0_0.Schema") (s% "anyOf") { builder := (.listOf (.ifNotRef (s% "v3_0_0.Reference") (.cls (s% "v3_0_0.Schema")))) },
  /- 235-235 -/
  .attach (s% "v3_0_0.Schema") (s% "not") { builder := (.ifNotRef (s% "v3_0_0.Reference") (.cls (s% "v3_0_0.Schema"))) },
  /- 236-236 -/
  .attach (s% "v3_0_0.Schema") (s% "items") { builder := (.ifNotRef (s% "v3_0_0.Reference") (.cls (s% "v3_0_0.Schema"))) },
  /- 237-238 -/
  .attach (s% "v3_0_0.Schema") (s% "properties") { builder := (.mapOf (.ifNotRef (s% "v3_0_0.Reference") (.cls (s% "v3_0_0.Schema")))) },
  /- 239-243 -/
  .attach (s% "v3_0_0.Schema") (s% "additionalProperties") { builder := (.ifNotBool (.ifNotRef (s% "v3_0_0.Reference") (.cls (s% "v3_0_0.Schema")))) },
  /- 246-269 -/
  .class_ (s% "v3_0_0.Parameter") [s% "v3_0_0.Base2_v3_0_0"] {
    version := s% "3.0.0"
    fields := [(s% "name", { required := true }),
      (s% "in", { required := true }),
      (s% "description", { }),
      (s% "required", { }),
      (s% "deprecated", { }),
      (s% "allowEmptyValue", { }),
      (s% "style", { }),
      (s% "explode", { }),
      (s% "allowReserved", { }),
      (s% "example", { })]
    children := [(s% "examples", { builder := (.mapOf (.ifNotRef (s% "v3_0_0.Reference") (.cls (s% "v3_0_0.Example")))) }),
      (s% "schema", { builder := (.ifNotRef (s% "v3_0_0.Reference") (.cls (s% "v3_0_0.Schema"))) })] },
  /- 275-283 -/
  .class_ (s% "v3_0_0.Header") [s% "v3_0_0.Parameter"] {
    version := s% "3.0.0"
    fields := [(s% "name", { restricted := true }),
      (s% "in", { restricted := true, default := .str (s% "header") })]
    children := [] },
  /- 289-304 -/
  .class_ (s% "v3_0_0.Encoding") [s% "v3_0_0.Base2_v3_0_0"] {
    version := s% "3.0.0"
    fields := [(s% "contentType", { }),
      (s% "stype", { }),
      (s% "explode", { }),
      (s% "allowReserved", { })]
    children := [(s% "headers", { builder := (.mapOf (.ifNotRef (s% "v3_0_0.Reference") (.cls (s% "v3_0_0.Header")))) })] },
  /- 307-316 -/
  .class_ (s% "v3_0_0.MediaType") [s% "v3_0_0.Base2_v3_0_0"] {
    version := s% "3.0.0"
    fields := [(s% "example", { })]
    children := [(s% "schema", { builder := (.ifNotRef (s% "v3_0_0.Reference") (.cls (s% "v3_0_0.Schema"))) }),
      (s% "examples", { builder := (.ifNotRef (s% "v3_0_0.Reference") (.cls (s% "v3_0_0.Example"))) }),
      (s% "encoding", { builder := (.mapOf (.cls (s% "v3_0_0.Encoding"))) })] },
  /- 319-319 -/
  .attach (s% "v3_0_0.Parameter") (s% "content") { builder := (.mapOf (.cls (s% "v3_0_0.MediaType"))) },
  /- 322-330 -/
  .class_ (s% "v3_0_0.RequestBody") [s% "v3_0_0.Base2_v3_0_0"] {
    version := s% "3.0.0"
    fields := [(s% "description", { }),
      (s% "required", { })]
    children := [(s% "content", { builder := (.mapOf (.cls (s% "v3_0_0.MediaType"))), required := true })] },
  /- 336-353 -/
  .class_ (s% "v3_0_0.Link") [s% "v3_0_0.Base2_v3_0_0"] {
    version := s% "3.0.0"
    fields := [(s% "operationRef", { }),
      (s% "operationId", { }),
      (s% "requestBody", { }),
      (s% "description", { })]
    children := [(s% "server", { builder := (.cls (s% "v3_0_0.Server")) }),
      (s% "parameters", { builder := (.mapOf .isStr) })] },
  /- 359-368 -/
  .class_ (s% "v3_0_0.Response") [s% "v3_0_0.Base2_v3_0_0"] {
    version := s% "3.0.0"
    fields := [(s% "description", { required := true })]
    children := [(s% "headers", { builder := (.mapOf (.ifNotRef (s% "v3_0_0.Reference") (.cls (s% "v3_0_0.Header")))) }),
      (s% "content", { builder := (.mapOf (.cls (s% "v3_0_0.MediaType"))) }),
      (s% "links", { builder := (.mapOf (.ifNotRef (s% "v3_0_0.Reference") (.cls (s% "v3_0_0.Link")))) })] },
  /- 374-389 -/
  .class_ (s% "v3_0_0.OAuthFlow") [s% "v3_0_0.Base2_v3_0_0"] {
    version := s% "3.0.0"
    fields := [(s% "authorizationUrl", { }),
      (s% "tokenUrl", { }),
      (s% "refreshUrl", { })]
    children := [(s% "scopes", { builder := (.mapOf .isStr), required := true })] },
  /- 392-403 -/
  .class_ (s% "v3_0_0.OAuthFlows") [s% "v3_0_0.Base2_v3_0_0"] {
    version := s% "3.0.0"
    fields := []
    children := [(s% "implicit", { builder := (.cls (s% "v3_0_0.OAuthFlow")) }),
      (s% "password", { builder := (.cls (s% "v3_0_0.OAuthFlow")) }),
      (s% "clientCredentials", { builder := (.cls (s% "v3_0_0.OAuthFlow")) }),
      (s% "authorizationCode", { builder := (.cls (s% "v3_0_0.OAuthFlow")) })] },
  /- 406-426 -/
  .class_ (s% "v3_0_0.SecurityScheme") [s% "v3_0_0.Base2_v3_0_0"] {
    version := s% "3.0.0"
    fields := [(s% "type", { required := true }),
      (s% "description", { }),
      (s% "name", { }),
      (s% "in", { }),
      (s% "scheme", { }),
      (s% "bearerFormat", { }),
      (s% "openIdConnectUrl", { })]
    children := [(s% "flows", { builder := (.cls (s% "v3_0_0.OAuthFlows")) })] },
  /- 432-454 -/
  .class_ (s% "v3_0_0.Operation") [s% "v3_0_0.Base2_v3_0_0"] {
    version := s% "3.0.0"
    fields := [(s% "summary", { }),
      (s% "description", { }),
      (s% "operationId", { }),
      (s% "deprecated", { })]
    children := [(s% "externalDocs", { builder := (.cls (s% "v3_0_0.ExternalDocumentation")) }),
      (s% "tags", { builder := (.listOf .isStr) }),
      (s% "parameters", { builder := (.listOf (.ifNotRef (s% "v3_0_0.Reference") (.cls (s% "v3_0_0.Parameter")))) }),
      (s% "requestBody", { builder := (.ifNotRef (s% "v3_0_0.Reference") (.cls (s% "v3_0_0.RequestBody"))) }),
      (s% "responses", { builder := (.mapOf (.ifNotRef (s% "v3_0_0.Reference") (.cls (s% "v3_0_0.Response")))) }),
      (s% "security", { builder := (.listOf (.mapOf (.listOf .isStr))) }),
      (s% "servers", { builder := (.listOf (.cls (s% "v3_0_0.Server"))) })] },
  /- 457-486 -/
  .class_ (s% "v3_0_0.PathItem") [s% "v3_0_0.Base2_v3_0_0"] {
    version := s% "3.0.0"
    fields := [(s% "$ref", { readonly := false }),
      (s% "summary", { }),
      (s% "description", { })]
    children := [(s% "get", { builder := (.cls (s% "v3_0_0.Operation")) }),
      (s% "put", { builder := (.cls (s% "v3_0_0.Operation")) }),
      (s% "post", { builder := (.cls (s% "v3_0_0.Operation")) }),
      (s% "delete", { builder := (.cls (s% "v3_0_0.Operation")) }),
      (s% "options", { builder := (.cls (s% "v3_0_0.Operation")) }),
      (s% "head", { builder := (.cls (s% "v3_0_0.Operation")) }),
      (s% "patch", { builder := (.cls (s% "v3_0_0.Operation")) }),
      (s% "trace", { builder := (.cls (s% "v3_0_0.Operation")) }),
      (s% "servers", { builder := (.listOf (.cls (s% "v3_0_0.Server"))) }),
      (s% "parameters", { builder := (.listOf (.ifNotRef (s% "v3_0_0.Reference") (.cls (s% "v3_0_0.Parameter")))) }),
      (s% "x-pyopenapi_internal_request_body", { builder := (.cls (s% "v3_0_0.RequestBody")) })] },
  /- 494-495 -/
  .attach (s% "v3_0_0.Operation") (s% "callbacks") { builder := (.mapOf (.ifNotRef (s% "v3_0_0.Reference") (.mapOf (.cls (s% "v3_0_0.PathItem"))))) },
  /- 498-514 -/
  .class_ (s% "v3_0_0.Components") [s% "v3_0_0.Base2_v3_0_0"] {
    version := s% "3.0.0"
    fields := []
    children := [(s% "schemas", { builder := (.mapOf (.ifNotRef (s% "v3_0_0.Reference") (.cls (s% "v3_0_0.Schema")))) }),
      (s% "responses", { builder := (.mapOf (.ifNotRef (s% "v3_0_0.Reference") (.cls (s% "v3_0_0.Response")))) }),
      (s% "parameters", { builder := (.mapOf (.ifNotRef (s% "v3_0_0.Reference") (.cls (s% "v3_0_0.Parameter")))) }),
      (s% "examples", { builder := (.mapOf (.ifNotRef (s% "v3_0_0.Reference") (.cls (s% "v3_0_0.Example")))) }),
      (s% "requestBodies", { builder := (.mapOf (.ifNotRef (s% "v3_0_0.Reference") (.cls (s% "v3_0_0.RequestBody")))) }),
      (s% "headers", { builder := (.mapOf (.ifNotRef (s% "v3_0_0.Reference") (.cls (s% "v3_0_0.Header")))) }),
      (s% "securitySchemes", { builder := (.mapOf (.ifNotRef (s% "v3_0_0.Reference") (.cls (s% "v3_0_0.SecurityScheme")))) }),
      (s% "links", { builder := (.mapOf (.ifNotRef (s% "v3_0_0.Reference") (.cls (s% "v3_0_0.Link")))) }),
      (s% "callbacks", { builder := (.mapOf (.ifNotRef (s% "v3_0_0.Reference") (.mapOf (.cls (s% "v3_0_0.PathItem"))))) })] },
  /- 517-529 -/
  .class_ (s% "v3_0_0.Tag") [s% "v3_0_0.Base2_v3_0_0"] {
    version := s% "3.0.0"
    fields := [(s% "name", { required := true }),
      (s% "description", { })]
    children := [(s% "externalDocs", { builder := (.cls (s% "v3_0_0.ExternalDocumentation")) })] },
  /- 532-549 -/
  .class_ (s% "v3_0_0.OpenApi") [s% "v3_0_0.Base2_v3_0_0"] {
    version := s% "3.0.0"
    fields := [(s% "openapi", { })]
    children := [(s% "info", { builder := (.cls (s% "v3_0_0.Info")) }),
      (s% "servers", { builder := (.listOf (.cls (s% "v3_0_0.Server"))) }),
      (s% "paths", { builder := (.mapOf (.cls (s% "v3_0_0.PathItem"))) }),
      (s% "components", { builder := (.cls (s% "v3_0_0.Components")) }),
      (s% "security", { builder := (.listOf (.mapOf (.listOf .isStr))) }),
      (s% "tags", { builder := (.listOf (.cls (s% "v3_0_0.Tag"))) }),
      (s% "externalDocs", { builder := (.cls (s% "v3_0_0.ExternalDocumentation")) })] }]

end Pyopenapi
