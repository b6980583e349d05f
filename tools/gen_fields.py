# fixed fields of the objects of the three specifications, written from the specifications
V12={
'ResourceListing':'swaggerVersion apis apiVersion info authorizations',
'ResourceInListing':'path description',
'Info':'title description termsOfServiceUrl contact license licenseUrl',
'Authorization':'type passAs keyname scopes grantTypes',
'Scope':'scope description',
'GrantTypes':'implicit authorization_code',
'Implicit':'loginEndpoint tokenName',
'AuthorizationCode':'tokenRequestEndpoint tokenEndpoint',
'LoginEndpoint':'url',
'TokenRequestEndpoint':'url clientIdName clientSecretName',
'TokenEndpoint':'url tokenName',
'ApiDeclaration':'swaggerVersion apiVersion basePath resourcePath apis models produces consumes authorizations',
'Api':'path description operations',
'Operation':'method summary notes nickname authorizations parameters responseMessages produces consumes deprecated type $ref format defaultValue enum minimum maximum items uniqueItems',
'Parameter':'paramType name description required allowMultiple type $ref format defaultValue enum minimum maximum items uniqueItems',
'ResponseMessage':'code message responseModel',
'Model':'id description required properties subTypes discriminator',
'Property':'description type $ref format defaultValue enum minimum maximum items uniqueItems',
'Items':'type $ref format',
}
sch='type format items default maximum exclusiveMaximum minimum exclusiveMinimum maxLength minLength pattern maxItems minItems uniqueItems enum multipleOf'
V20={
'Swagger':'swagger info host basePath schemes consumes produces paths definitions parameters responses securityDefinitions security tags externalDocs',
'Info':'title description termsOfService contact license version',
'Contact':'name url email','License':'name url',
'PathItem':'$ref get put post delete options head patch parameters',
'Operation':'tags summary description externalDocs operationId consumes produces parameters responses schemes deprecated security',
'ExternalDocumentation':'description url',
'Parameter':'name in description required schema allowEmptyValue collectionFormat '+sch,
'Items':'collectionFormat '+sch,
'Response':'description schema headers examples',
'Header':'description collectionFormat '+sch,
'Tag':'name description externalDocs','Reference':'$ref',
'Schema':'$ref title description maxProperties minProperties required allOf properties additionalProperties discriminator readOnly xml externalDocs example '+sch,
'XMLObject':'name namespace prefix attribute wrapped',
'SecurityScheme':'type description name in flow authorizationUrl tokenUrl scopes',
}
V30={
'OpenApi':'openapi info servers paths components security tags externalDocs',
'Info':'title description termsOfService contact license version',
'Contact':'name url email','License':'name url',
'Server':'url description variables','ServerVariable':'enum default description',
'Components':'schemas responses parameters examples requestBodies headers securitySchemes links callbacks',
'PathItem':'$ref summary description get put post delete options head patch trace servers parameters',
'Operation':'tags summary description externalDocs operationId parameters requestBody responses callbacks deprecated security servers',
'ExternalDocumentation':'description url',
'Parameter':'name in description required deprecated allowEmptyValue style explode allowReserved schema example examples content',
'RequestBody':'description content required',
'MediaType':'schema example examples encoding',
'Encoding':'contentType headers style explode allowReserved',
'Response':'description headers content links',
'Example':'summary description value externalValue',
'Link':'operationRef operationId parameters requestBody description server',
'Header':'description required deprecated allowEmptyValue style explode allowReserved schema example examples content',
'Tag':'name description externalDocs','Reference':'$ref',
'Schema':'title multipleOf maximum exclusiveMaximum minimum exclusiveMinimum maxLength minLength pattern maxItems minItems uniqueItems maxProperties minProperties required enum type allOf oneOf anyOf not items properties additionalProperties description format default nullable discriminator readOnly writeOnly xml externalDocs example deprecated',
'Discriminator':'propertyName mapping','XML_':'name namespace prefix attribute wrapped',
'SecurityScheme':'type description name in scheme bearerFormat flows openIdConnectUrl',
'OAuthFlows':'implicit password clientCredentials authorizationCode',
'OAuthFlow':'authorizationUrl tokenUrl refreshUrl scopes',
}
def lst(ws):
    out=[];cur='   '
    for i,w in enumerate(ws):
        t=f' s% "{w}"'+(',' if i<len(ws)-1 else '')
        if len(cur)+len(t)>118: out.append(cur);cur='   '
        cur+=t
    out.append(cur)
    return '\n'.join(out).strip()
rows=[]
for p,V in(('v1_2',V12),('v2_0',V20),('v3_0_0',V30)):
    for c,fs in V.items(): rows.append(f'  (s% "{p}.{c}", [{lst(fs.split())}])')
open('/verif/lean/Verif/Spec/Fields.lean','w').write('''import Verif.Model.Renames

/-!
# Specification: the fixed fields of the objects of Swagger 1.2, Swagger 2.0 and OpenAPI 3.0.0

Written from the three specifications, not from the code.  (Of the objects of 1.2 that have a data type, the fields of the
data type are included.  Paths, Responses, Definitions, Callback, SecurityRequirement, Scopes, ... have patterned fields
only: they are maps.)
-/

namespace Pyopenapi.Spec

/-- The fixed fields of each object. -/
def fixedFields : List (Str × List Str) := [
'''+',\n'.join(rows)+''']

/-- What a field of a loaded object is kept as: the value `v` of the document is read as it is, and written by `dump`; or it is
read as an object loaded from it, whose dump `dump` writes, unless it is empty. -/
def Kept (o : Obj) (f : Str) (v : Json) : Prop :=
  (o.attribute f = .ok (.prim v) ∧ ∀ d, Obj.dump pkg o = .ok (.obj d) → Dict.get? d f = some v) ∨
    ∃ b p x, build pkg b v p [] = .ok x ∧ o.attribute f = .ok x ∧
      (∀ d, Obj.dump pkg o = .ok (.obj d) → x.truthy = true → ∃ v', Obj.dump pkg x = .ok v' ∧ Dict.get? d f = some v')

/-- A name without `_`, `-`, `$` and capital letters. -/
def plain (s : Str) : Str := (s.filter (fun c => !['_', '-', '$'].contains c)).map Char.toLower

end Pyopenapi.Spec
''')
