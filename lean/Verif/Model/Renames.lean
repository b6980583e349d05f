import Verif.Model.Tables

/-!
# Attributes with another name (`rename`, obj.py:58-75)

Generated by /verif/tools/gen_tables.py from the source text.
-/

namespace Pyopenapi

/-- `__internal__` of each class, as far as it is made by `rename`: the name of the attribute and the one it stands for
(with those of the bases, obj.py:508-511). -/
def renames : Dict (Dict Str) := [
  /- v1_2/objects.py:12-25 -/
  (s% "v1_2.Items", [(s% "ref", s% "$ref"),
    (s% "type_", s% "type"),
    (s% "format_", s% "format")]),
  /- v1_2/objects.py:28-52 -/
  (s% "v1_2.DataTypeObj", [(s% "type_", s% "type"),
    (s% "ref", s% "$ref"),
    (s% "format_", s% "format"),
    (s% "default_value", s% "defaultValue"),
    (s% "unique_items", s% "uniqueItems")]),
  /- v1_2/objects.py:74-89 -/
  (s% "v1_2.Implicit", [(s% "token_name", s% "tokenName"),
    (s% "login_endpoint", s% "loginEndpoint")]),
  /- v1_2/objects.py:92-105 -/
  (s% "v1_2.TokenRequestEndpoint", [(s% "client_id_name", s% "clientIdName"),
    (s% "client_secret_name", s% "clientSecretName")]),
  /- v1_2/objects.py:108-119 -/
  (s% "v1_2.TokenEndpoint", [(s% "token_name", s% "tokenName")]),
  /- v1_2/objects.py:122-135 -/
  (s% "v1_2.AuthorizationCode", [(s% "token_request_endpoint", s% "tokenRequestEndpoint"),
    (s% "token_endpoint", s% "tokenEndpoint")]),
  /- v1_2/objects.py:158-177 -/
  (s% "v1_2.Authorization", [(s% "type_", s% "type"),
    (s% "pass_as", s% "passAs"),
    (s% "grant_types", s% "grantTypes")]),
  /- v1_2/objects.py:180-192 -/
  (s% "v1_2.ResponseMessage", [(s% "response_model", s% "responseModel")]),
  /- v1_2/objects.py:195-210 -/
  (s% "v1_2.Parameter", [(s% "param_type", s% "paramType"),
    (s% "allow_multiple", s% "allowMultiple"),
    (s% "type_", s% "type"),
    (s% "ref", s% "$ref"),
    (s% "format_", s% "format"),
    (s% "default_value", s% "defaultValue"),
    (s% "unique_items", s% "uniqueItems")]),
  /- v1_2/objects.py:213-235 -/
  (s% "v1_2.Operation", [(s% "response_messages", s% "responseMessages"),
    (s% "type_", s% "type"),
    (s% "ref", s% "$ref"),
    (s% "format_", s% "format"),
    (s% "default_value", s% "defaultValue"),
    (s% "unique_items", s% "uniqueItems")]),
  /- v1_2/objects.py:252-258 -/
  (s% "v1_2.Property", [(s% "type_", s% "type"),
    (s% "ref", s% "$ref"),
    (s% "format_", s% "format"),
    (s% "default_value", s% "defaultValue"),
    (s% "unique_items", s% "uniqueItems")]),
  /- v1_2/objects.py:261-280 -/
  (s% "v1_2.Model", [(s% "id_", s% "id"),
    (s% "sub_types", s% "subTypes")]),
  /- v1_2/objects.py:283-309 -/
  (s% "v1_2.ApiDeclaration", [(s% "swagger_version", s% "swaggerVersion"),
    (s% "api_version", s% "apiVersion"),
    (s% "base_path", s% "basePath"),
    (s% "resource_path", s% "resourcePath")]),
  /- v1_2/objects.py:312-328 -/
  (s% "v1_2.Info", [(s% "terms_of_service_url", s% "termsOfServiceUrl"),
    (s% "license_url", s% "licenseUrl")]),
  /- v1_2/objects.py:340-358 -/
  (s% "v1_2.ResourceListing", [(s% "swagger_version", s% "swaggerVersion"),
    (s% "api_version", s% "apiVersion")]),
  /- v2_0/objects.py:43-52 -/
  (s% "v2_0.Reference", [(s% "ref", s% "$ref")]),
  /- v2_0/objects.py:146-175 -/
  (s% "v2_0.Schema", [(s% "ref", s% "$ref"),
    (s% "max_properties", s% "maxProperties"),
    (s% "min_properties", s% "minProperties"),
    (s% "read_only", s% "readOnly"),
    (s% "external_docs", s% "externalDocs"),
    (s% "all_of", s% "allOf"),
    (s% "additional_properties", s% "additionalProperties")]),
  /- v2_0/objects.py:206-223 -/
  (s% "v2_0.Info", [(s% "terms_of_service", s% "termsOfService")]),
  /- v2_0/objects.py:226-247 -/
  (s% "v2_0.Parameter", [(s% "in_", s% "in"),
    (s% "collection_format", s% "collectionFormat"),
    (s% "allow_empty_value", s% "allowEmptyValue")]),
  /- v2_0/objects.py:253-267 -/
  (s% "v2_0.Header", [(s% "collection_format", s% "collectionFormat")]),
  /- v2_0/objects.py:288-320 -/
  (s% "v2_0.Operation", [(s% "operation_id", s% "operationId"),
    (s% "external_docs", s% "externalDocs")]),
  /- v2_0/objects.py:323-343 -/
  (s% "v2_0.PathItem", [(s% "ref", s% "$ref")]),
  /- v2_0/objects.py:346-364 -/
  (s% "v2_0.SecurityScheme", [(s% "type_", s% "type"),
    (s% "in_", s% "in")]),
  /- v2_0/objects.py:367-396 -/
  (s% "v2_0.Swagger", [(s% "base_path", s% "basePath"),
    (s% "security_definitions", s% "securityDefinitions"),
    (s% "external_docs", s% "externalDocs")]),
  /- v3_0_0/objects.py:14-19 -/
  (s% "v3_0_0.Reference", [(s% "ref", s% "$ref")]),
  /- v3_0_0/objects.py:75-90 -/
  (s% "v3_0_0.Info", [(s% "terms_of_service", s% "termsOfService")]),
  /- v3_0_0/objects.py:93-103 -/
  (s% "v3_0_0.ServerVariable", [(s% "enum_", s% "enum")]),
  /- v3_0_0/objects.py:117-127 -/
  (s% "v3_0_0.Example", [(s% "external_value", s% "externalValue")]),
  /- v3_0_0/objects.py:150-161 -/
  (s% "v3_0_0.Discriminator", [(s% "property_name", s% "propertyName")]),
  /- v3_0_0/objects.py:164-223 -/
  (s% "v3_0_0.Schema", [(s% "multiple_of", s% "multipleOf"),
    (s% "exclusive_maximum", s% "exclusiveMaximum"),
    (s% "exclusive_minimum", s% "exclusiveMinimum"),
    (s% "max_length", s% "maxLength"),
    (s% "min_length", s% "minLength"),
    (s% "max_items", s% "maxItems"),
    (s% "min_items", s% "minItems"),
    (s% "unique_items", s% "uniqueItems"),
    (s% "max_properties", s% "maxProperties"),
    (s% "min_properties", s% "minProperties"),
    (s% "enum_", s% "enum"),
    (s% "type_", s% "type"),
    (s% "format_", s% "format"),
    (s% "read_only", s% "readOnly"),
    (s% "write_only", s% "writeOnly"),
    (s% "xml_", s% "xml"),
    (s% "external_docs", s% "externalDocs"),
    (s% "all_of", s% "allOf"),
    (s% "one_of", s% "oneOf"),
    (s% "any_of", s% "anyOf"),
    (s% "not_", s% "not"),
    (s% "additional_properties", s% "additionalProperties")]),
  /- v3_0_0/objects.py:246-269 -/
  (s% "v3_0_0.Parameter", [(s% "in_", s% "in"),
    (s% "allow_empty_value", s% "allowEmptyValue"),
    (s% "allow_reserved", s% "allowReserved")]),
  /- v3_0_0/objects.py:275-283 -/
  (s% "v3_0_0.Header", [(s% "in_", s% "in"),
    (s% "allow_empty_value", s% "allowEmptyValue"),
    (s% "allow_reserved", s% "allowReserved")]),
  /- v3_0_0/objects.py:289-304 -/
  (s% "v3_0_0.Encoding", [(s% "content_type", s% "contentType"),
    (s% "allow_reserved", s% "allowReserved")]),
  /- v3_0_0/objects.py:336-353 -/
  (s% "v3_0_0.Link", [(s% "operation_ref", s% "operationRef"),
    (s% "operation_id", s% "operationId"),
    (s% "request_body", s% "requestBody")]),
  /- v3_0_0/objects.py:374-389 -/
  (s% "v3_0_0.OAuthFlow", [(s% "authorization_url", s% "authorizationUrl"),
    (s% "token_url", s% "tokenUrl"),
    (s% "refresh_url", s% "refreshUrl")]),
  /- v3_0_0/objects.py:392-403 -/
  (s% "v3_0_0.OAuthFlows", [(s% "client_credentials", s% "clientCredential"),
    (s% "authorization_code", s% "authorizationCode")]),
  /- v3_0_0/objects.py:406-426 -/
  (s% "v3_0_0.SecurityScheme", [(s% "type_", s% "type"),
    (s% "in_", s% "in"),
    (s% "bearer_format", s% "bearerFormat"),
    (s% "openid_connect_url", s% "openIdConnectUrl")]),
  /- v3_0_0/objects.py:432-454 -/
  (s% "v3_0_0.Operation", [(s% "external_docs", s% "externalDocs"),
    (s% "operation_id", s% "operationId"),
    (s% "request_body", s% "requestBody")]),
  /- v3_0_0/objects.py:457-486 -/
  (s% "v3_0_0.PathItem", [(s% "ref", s% "$ref"),
    (s% "x_pyopenapi_internal_request_body", s% "x-pyopenapi_internal_request_body")]),
  /- v3_0_0/objects.py:498-514 -/
  (s% "v3_0_0.Components", [(s% "request_bodies", s% "requestBodies"),
    (s% "security_schemes", s% "securitySchemes")]),
  /- v3_0_0/objects.py:517-529 -/
  (s% "v3_0_0.Tag", [(s% "external_docs", s% "externalDocs")]),
  /- v3_0_0/objects.py:532-549 -/
  (s% "v3_0_0.OpenApi", [(s% "external_docs", s% "externalDocs")])]

/-- `getattr(obj, name)` for a declared child or field or, else, an attribute made by `rename`: obj.py:70-71 reads the
other attribute. -/
def Obj.attribute (o : Obj) (name : Str) : R Obj :=
  match o with
  | .base c _ spec kids =>
    if Dict.has (pkg c).children name ∨ Dict.has (pkg c).fields name then Obj.getattr pkg c spec kids name
    else match Dict.get? ((Dict.get? renames c).getD []) name with
      | some key => Obj.getattr pkg c spec kids key
      | none => .error .attributeError
  | _ => .error .attributeError

end Pyopenapi
