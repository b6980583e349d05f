# Reads /repo/pyopenapi/migration/versions/*/objects.py as text (ast, never executed) and writes
# /verif/lean/Verif/Model/Tables.lean: the class tables after the metaclass merge (obj.py:494-524).
import ast, os
R='/repo/pyopenapi/migration/versions/'
out=[]; names=[]; ren=[]; stm=[]; mods=[]
def lit(s): return 's%% "%s"' % s
def run(mod, ver):
    path=R+mod+'/objects.py'
    tree=ast.parse(open(path).read())
    classes={}; builders={}
    def q(n): return mod+'.'+n
    def bexpr(e):
        if isinstance(e, ast.Name):
            if e.id in builders: return builders[e.id]
            if e.id=='is_str': return '.isStr'
            if e.id=='is_str_or_int': return '.isStrOrInt'
            assert e.id in classes, e.id
            return '(.cls (%s))' % lit(q(e.id))
        assert isinstance(e, ast.Call)
        f=e.func.id; a=bexpr(e.args[0])
        if f=='list_': return '(.listOf %s)'%a
        if f=='map_': return '(.mapOf %s)'%a
        if f=='if_not_ref_else': return '(.ifNotRef (%s) %s)'%(lit(q('Reference')),a)
        if f=='if_not_bool_else': return '(.ifNotBool %s)'%a
        raise Exception(f)
    def kw(call): return {k.arg:k.value for k in call.keywords}
    def fdef(call):
        k=kw(call); r=[]
        assert set(k)<= {'required','default','restricted','readonly','key'}, set(k)
        for n in ('required','restricted','readonly'):
            if n in k: r.append('%s := %s'%(n, str(k[n].value).lower()))
        if 'default' in k:
            d=k['default']
            if isinstance(d, ast.List): r.append('default := .arr []')
            else: r.append('default := .str (%s)'%lit(d.value))
        return '{ '+', '.join(r)+' }' if r else '{ }'
    def cdef(k):
        assert set(k)<= {'child_builder','required','builder'}, set(k)
        r=['builder := '+bexpr(k['child_builder'])]
        if 'required' in k: r.append('required := '+str(k['required'].value).lower())
        return '{ '+', '.join(r)+' }'
    stm.append('/-- The class statements and the calls of `attach_field` of versions/%s/objects.py, in their order. -/\ndef %s_statements : List Meta.Statement := ['%(mod,mod)); mods.append(mod)
    acc=[]
    for st in tree.body:
        if isinstance(st, ast.ClassDef):
            b=st.bases[0]
            if isinstance(b, ast.Call):      # class Callback(map_(PathItem))
                builders[st.name]=bexpr(b); continue
            fields={}; children={}; intl={}
            classes[st.name]=dict(fields=fields,children=children,intl=intl,lines=[(st.lineno,st.end_lineno)],base=b.id)
            for s in st.body:
                if isinstance(s, ast.Assign):
                    t=s.targets[0].id
                    if t=='__fields__':
                        for k,v in zip(s.value.keys,s.value.values): fields[k.value]=fdef(v)
                    if t=='__children__':
                        for k,v in zip(s.value.keys,s.value.values): children[k.value]=cdef(kw(v))
                    if t=='__internal__':
                        for k,v in zip(s.value.keys,s.value.values):
                            a=kw(v); intl[k.value]=a['key'].value if 'builder' in a and a['builder'].id=='rename' else None
            acc.append('  /- %d-%d -/\n  .class_ (%s) [%s] {\n    version := %s\n    fields := [%s]\n    children := [%s] }'%(st.lineno,st.end_lineno,lit(q(st.name)),lit(q(b.id)) if b.id in classes else '',lit(ver),
                ',\n      '.join('(%s, %s)'%(lit(k),v) for k,v in fields.items()),',\n      '.join('(%s, %s)'%(lit(k),v) for k,v in children.items())))
            if b.id in classes:
                for k,v in classes[b.id]['fields'].items(): fields.setdefault(k,v)
                for k,v in classes[b.id]['children'].items(): children.setdefault(k,v)
                for k,v in classes[b.id]['intl'].items(): intl.setdefault(k,v)
        elif isinstance(st, ast.Assign) and isinstance(st.value, ast.Call):
            builders[st.targets[0].id]=bexpr(st.value)
        elif isinstance(st, ast.Expr) and isinstance(st.value, ast.Call):
            c=st.value; assert c.func.attr=='attach_field'
            acc.append('  /- %d-%d -/\n  .attach (%s) (%s) %s'%(st.lineno,st.end_lineno,lit(q(c.func.value.id)),lit(c.args[0].value),cdef(kw(c))))
            cl=classes[c.func.value.id]; k=kw(c); assert k['builder'].id=='child'
            cl['children'][c.args[0].value]=cdef(k); cl['lines'].append((st.lineno,st.end_lineno))
    stm.append(',\n'.join(acc)+']\n')
    for n,c in classes.items():
        if n.startswith('Base'+('Obj_' if ver!='3.0.0' else '2_')): continue
        rs=[(k,v) for k,v in c['intl'].items() if v]
        if rs: ren.append('  /- %s/objects.py:%d-%d -/\n  (%s, [%s])'%(mod,*c['lines'][0],lit(q(n)),',\n    '.join('(%s, %s)'%(lit(k),lit(v)) for k,v in rs)))
        ident='%s_%s'%(mod,n); names.append((q(n),ident))
        cite=', '.join('%d-%d'%x for x in c['lines'])
        out.append('/-- %s/objects.py:%s `%s`%s. -/'%(mod,cite,n,'' if c['base'].startswith(('BaseObj_','Base2_')) or c['base']=='Base2' else ' (with the fields and children of `%s`)'%c['base']))
        out.append('def %s : ClassDef where'%ident)
        out.append('  version := %s'%lit(ver))
        if c['fields']: out.append('  fields := [\n'+',\n'.join('    (%s, %s)'%(lit(k),v) for k,v in c['fields'].items())+']')
        if c['children']: out.append('  children := [\n'+',\n'.join('    (%s, %s)'%(lit(k),v) for k,v in c['children'].items())+']')
        out.append('')
run('v1_2','1.2'); run('v2_0','2.0'); run('v3_0_0','3.0.0')
h='''import Verif.Model.Obj

/-!
# The class tables of versions/v1_2, v2_0, v3_0_0 objects.py

Generated by /verif/tools/gen_tables.py from the source text.  `rename` and internal attributes are
not part of the tables.  `Callback` (v3_0_0/objects.py:489-490, a subclass of `map_(PathItem)`) is
its `map_` builder; `Header` has no `content` child because `Parameter.attach_field('content', ..)`
(v3_0_0/objects.py:319) runs after `Header` has copied the children of `Parameter`.
-/

namespace Pyopenapi

'''
t='/-- Every class of the package, by module and name. -/\ndef classes : Dict ClassDef := [\n'+',\n'.join('  (%s, %s)'%(lit(a),b) for a,b in names)+']\n\n'
t+='/-- The table of the package (an unknown name has no field and no child). -/\ndef pkg : Table := fun c => (Dict.get? classes c).getD ⟨[], [], []⟩\n\nend Pyopenapi\n'
open('/verif/lean/Verif/Model/Tables.lean','w').write(h+'\n'.join(out)+'\n'+t)

open('/verif/lean/Verif/Model/Renames.lean','w').write('''import Verif.Model.Tables

/-!
# Attributes with another name (`rename`, obj.py:58-75)

Generated by /verif/tools/gen_tables.py from the source text.
-/

namespace Pyopenapi

/-- `__internal__` of each class, as far as it is made by `rename`: the name of the attribute and the one it stands for
(with those of the bases, obj.py:508-511). -/
def renames : Dict (Dict Str) := [
'''+',\n'.join(ren)+''']

/-- `getattr(obj, name)` for a declared child or field or, else, an attribute made by `rename`: obj.py:70-71 reads the
other attribute. -/
def Obj.attribute (o : Obj) (name : Str) : R Obj :=
  match o with
  | .base c _ spec kids =>
    if Dict.has (pkg c).children name ∨ Dict.has (pkg c).fields name then Obj.getattr pkg c spec kids name
    else match Dict.get? ((Dict.get? renames c).getD []) name with
      | some key => Obj.getattr pkg c spec kids key
      | none => .error .attributeError
  | _ => .error .attributeError

end Pyopenapi
''')

open('/verif/lean/Verif/Model/Statements.lean','w').write('''import Verif.Model.Meta

/-!
# The statements of versions/v1_2, v2_0, v3_0_0 objects.py that make classes

Generated by /verif/tools/gen_tables.py from the source text: what each class statement itself declares, its base, and the
calls of `attach_field`.  The bases `Base2` (obj.py:742) declare nothing and are left out.
-/

namespace Pyopenapi

'''+'\n'.join(stm)+'''
end Pyopenapi
''')
