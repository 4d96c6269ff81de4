"""Generates lean/Verif/Proof/DebugTypes.lean and lean/Verif/Proof/DebugErrors.lean: `Tells` instances for the instances of
lean/Verif/Model/DebugCore.lean and lean/Verif/Model/DebugErrors.lean (the types without names or instructions)."""
import re
B='/verif/lean/Verif/'
def esc(c): return '«Type»' if c=='Type' else c
SKIP={'Import','Export','CustomSection','Func','Global','DataMode','Data','ElemMode','Elem','Table','Module'}
def okexpr(e):
    if e.startswith('.word'): return 'ok_word rfl'
    if e.endswith('[.tuple "TryFromIntError" [.unit]]'):
        return 'ok_tuple rfl (okI_cons (ok_tuple rfl (okI_cons (by simp only [Dbg.Ok]) okI_nil)) okI_nil)'
    m=re.match(r'\.tuple "\w+" \[(.*)\]$',e)
    if m:
        r='okI_nil'
        for _ in m.group(1).split(', '): r=f'okI_cons (Tells.ok h _) ({r})' if r!='okI_nil' else 'okI_cons (Tells.ok h _) okI_nil'
        return f'ok_tuple rfl ({r})'
    m=re.match(r'\.struct "\w+" \[(.*)\]$',e)
    r='okF_nil'
    for _ in m.group(1).split('), ('): r=f'okF_cons rfl (Tells.ok h _) ({r})' if r!='okF_nil' else 'okF_cons rfl (Tells.ok h _) okF_nil'
    return f'ok_struct rfl ({r})'
def arity(e):
    if e.startswith('.word'): return None,0
    k='tuple' if e.startswith('.tuple') else 'struct'
    return k,e.count('dbg t ')
def injexpr(c,e,nx):
    k,n=arity(e)
    if n==0: return 'rfl'
    if n==1: return f'exact congrArg {c} (Tells.inj h ({k}1 e))'
    vs=['p','q','r'][:n]
    return f'obtain ⟨{", ".join(vs)}⟩ := {k}{n} e\n      '+'; '.join(f'cases Tells.inj h {v}' for v in vs)+'; rfl'
def gen(src,dst,title):
    t=open(B+src).read()
    out=title
    for m in re.finditer(r'^instance( \{E.*?\])? ?: Debug (\(?[\w ]+\)?) (:=|where)\n?(.*?)\n\n',t,re.M|re.S):
        par,name,k,body=m.groups()
        if name in SKIP: continue
        if par:
            continue
        if k==':=':
            e=re.match(r' ?⟨fun t x => (.*)⟩$',body.strip() if not body.startswith(' ') else body).group(1)
            kk,n=arity(e)
            out+=f'instance : Tells {name} where\n  ok h _ := {okexpr(e)}\n  inj h a b e := by\n    cases a; cases b\n'
            vs=['p','q','r'][:n]
            if n==1: out+=f'    cases Tells.inj h ({kk}1 e); rfl\n\n'
            else: out+=f'    obtain ⟨{", ".join(vs)}⟩ := {kk}{n} e\n    '+'; '.join(f'cases Tells.inj h {v}' for v in vs)+'; rfl\n\n'
        else:
            cs=re.findall(r'^    \| \.(\S+)( [^=]*)? => (.*)$',body,re.M)
            out+=f'instance : Tells {name} where\n  ok h a := by\n    cases a with\n'
            for c,a,e in cs:
                na=len(a.split()) if a else 0
                out+=f'    | {esc(c)}{" _"*na} => exact {okexpr(e)}\n'
            out+='  inj h a b e := by\n'
            tact=[]
            out+='    cases a with\n'
            for c,a,e in cs:
                na=len(a.split()) if a else 0
                inj=injexpr(f'{name}.{c}',e,na)
                if len(cs)==1:
                    out+=f'    | {esc(c)}{" _"*na} => cases b with\n      | {esc(c)}{" _"*na} => {inj}\n'
                else:
                    out+=f'    | {esc(c)}{" _"*na} =>\n      cases b with\n      | {esc(c)}{" _"*na} => {inj if chr(10) not in inj else inj.replace(chr(10),chr(10)+"  ")}\n      | _ => exact noWay e rfl\n'
            out+='\n'
    return out
def fix(o):
    # multi-line alternatives
    o=re.sub(r'=> obtain','=>\n        obtain',o)
    return o
core=gen('Model/DebugCore.lean',None,'''import Verif.Proof.DebugBase

/-! Generated by tools/gen_tells.py: the `Debug` trees of the types of /repo/src/core without names and
instructions determine the values. -/

namespace Wadec

''')+'end Wadec\n'
open(B+'Proof/DebugTypes.lean','w').write(fix(core))
err=gen('Model/DebugErrors.lean',None,'''import Verif.Proof.DebugTypes
import Verif.Model.DebugErrors

/-! Generated by tools/gen_tells.py: the `Debug` trees of the error types of /repo/src/decode determine the values. -/

namespace Wadec

/-- the names of types are words -/
class WordName (α : Type) [TypeName α] : Prop where
  word : isWord (typeName α) = true

''')
for n in re.findall(r'^instance : TypeName (\w+)',open(B+'Model/DebugErrors.lean').read(),re.M):
    err=err.replace(f'instance : Tells {n} where',f'instance : WordName {n} := ⟨rfl⟩\n\ninstance : Tells {n} where',1) if f'instance : Tells {n} where' in err else err+f'instance : WordName {n} := ⟨rfl⟩\n\n'
LIST='''instance {E : Type} [Debug E] [TypeName E] [Tells E] [WordName E] : Tells (DecodeListError E) where
  ok h a := by
    cases a with
    | DecodeLength _ => exact ok_tuple rfl (okI_cons (Tells.ok h _) okI_nil)
    | ParseElement _ _ => exact ok_struct rfl (okF_cons rfl (Tells.ok h _) (okF_cons rfl
        (ok_path WordName.word (Tells.ok h _)) okF_nil))
  inj h a b e := by
    cases a with
    | DecodeLength _ =>
      cases b with
      | DecodeLength _ => exact congrArg DecodeListError.DecodeLength (Tells.inj h (tuple1 e))
      | _ => exact noWay e rfl
    | ParseElement _ _ =>
      cases b with
      | ParseElement _ _ =>
        obtain ⟨p, q⟩ := struct2 e
        cases Tells.inj h p; cases Tells.inj h (path_eq q); rfl
      | _ => exact noWay e rfl

'''
i=err.index('instance : Tells DecodeU64Error')
err=err[:i]+LIST+err[i:]
open(B+'Proof/DebugErrors.lean','w').write(fix(err)+'end Wadec\n')
