"""Generates lean/Verif/Proof/DebugNames.lean and lean/Verif/Proof/DebugInstr.lean: the `Debug` trees of instructions determine
the instructions up to the payloads of NaNs."""
import re
B='/verif/lean/Verif/'
t=open(B+'Model/DebugCore.lean').read()
OPS=[]
for on in ['PlainOp','MemOp','MemLaneOp','LaneOp']:
    m=re.search(r'def '+on+r'\.text.*?\n\n',t,re.S).group(0)
    OPS.append((on,re.findall(r'=> "(\w+)"',m)))
m=t[t.index('def Instr.dbg'):t.index('/-- `Vec<Instruction>`')]
cs=re.findall(r'^  \| \.(\w+)((?: \w+)*) => \.tuple "(\w+)" \[(.*)\]$',m,re.M)
cs=[(c,a.split(),n,e) for c,a,n,e in cs]
syn=open(B+'Core/Syntax.lean').read()
syn=syn[syn.index('inductive Instr where'):]
order=re.findall(r'^  \| (\w+)',syn,re.M)
base=[0]
for _,v in OPS: base.append(base[-1]+len(v))
N=base[4]
cs.sort(key=lambda c:order.index(c[0]))
assert [c[0] for c in cs]==order[4:4+len(cs)]
names=[n for _,v in OPS for n in v]+[c[2] for c in cs]
def wrap(xs,ind,width=110):
    out='';line=ind
    for i,x in enumerate(xs):
        s=x+(', ' if i<len(xs)-1 else '')
        if len(line)+len(s)>width: out+=line.rstrip()+'\n'; line=ind
        line+=s
    return out+line
o=f'''import Verif.Proof.DebugTypes

/-! Generated by tools/gen_tells_instr.py: the names of the instructions differ. -/

set_option maxRecDepth 4000

namespace Wadec

/-- the names of all instructions -/
def allNames : List String := [
{wrap(['"'+n+'"' for n in names],'  ')}]

/-- a number for a name -/
def nameKey (s : String) : Nat := s.toList.foldl (fun a c => a * 256 + c.toNat) 0

def distinct : List Nat → Bool
  | [] => true
  | n :: ns => ns.all (fun m => !(Nat.beq n m)) && distinct ns

theorem distinct_get : ∀ {{l : List Nat}} {{i j k : Nat}}, distinct l = true → l[i]? = some k → l[j]? = some k → i = j
  | [], i, _, _, _, h, _ => by simp at h
  | n :: ns, i, j, k, hd, hi, hj => by
    simp only [distinct, Bool.and_eq_true, List.all_eq_true] at hd
    have no : ∀ {{m : Nat}}, ns[m]? = some n → False := fun {{m}} hm => by
      have := hd.1 n (List.mem_of_getElem? hm)
      simp at this
    cases i with
    | zero => cases j with
      | zero => rfl
      | succ j =>
        simp only [List.getElem?_cons_zero, Option.some.injEq, List.getElem?_cons_succ] at hi hj
        subst hi; exact (no hj).elim
    | succ i => cases j with
      | zero =>
        simp only [List.getElem?_cons_zero, Option.some.injEq, List.getElem?_cons_succ] at hi hj
        subst hj; exact (no hi).elim
      | succ j =>
        simp only [List.getElem?_cons_succ] at hi hj
        rw [distinct_get hd.2 hi hj]

theorem allNames_distinct : distinct (allNames.map nameKey) = true := by decide +kernel

theorem allNames_words : allNames.all isWord = true := by decide +kernel

theorem allNames_get {{i j : Nat}} {{s : String}} (hi : allNames[i]? = some s) (hj : allNames[j]? = some s) : i = j :=
  distinct_get allNames_distinct (k := nameKey s) (by rw [List.getElem?_map, hi]; rfl)
    (by rw [List.getElem?_map, hj]; rfl)

theorem allNames_word {{i : Nat}} {{s : String}} (hi : allNames[i]? = some s) : isWord s = true :=
  List.all_eq_true.1 allNames_words s (List.mem_of_getElem? hi)

'''
for k,(on,v) in enumerate(OPS):
    b=base[k]
    o+=f'''theorem {on}.text_get (op : {on}) : allNames[{str(b)+' + ' if b else ''}op.ctorIdx]? = some op.text := by
  cases op <;> rfl

theorem {on}.ctorIdx_lt (op : {on}) : op.ctorIdx < {len(v)} := by cases op <;> exact Nat.le_of_ble_eq_true rfl

theorem {on}.text_inj {{a b : {on}}} (h : a.text = b.text) : a = b := by
  have e := allNames_get a.text_get (h ▸ b.text_get)
  have e : a.ctorIdx = b.ctorIdx := by omega
  rw [← {on}.ofNat_ctorIdx a, ← {on}.ofNat_ctorIdx b, e]

'''
o+=f'''/-- the place of the name of an instruction in the list -/
def Instr.code : Instr → Nat
  | .plain op => op.ctorIdx
  | .mem op _ => {base[1]} + op.ctorIdx
  | .memLane op _ _ => {base[2]} + op.ctorIdx
  | .lane op _ => {base[3]} + op.ctorIdx
  | i => {N-4} + i.ctorIdx

theorem Instr.name_get (T : StdText) (i : Instr) : allNames[i.code]? = some (i.dbg T).head := by
  cases i with
  | plain op => exact op.text_get
  | mem op m => exact op.text_get
  | memLane op m l => exact op.text_get
  | lane op l => exact op.text_get
  | _ => rfl

/-- the constructor of the instruction whose name is at this place -/
def kindAt (n : Nat) : Nat :=
  if n < {base[1]} then 0 else if n < {base[2]} then 1 else if n < {base[3]} then 2 else if n < {base[4]} then 3 else n - {N-4}

theorem Instr.kindAt_code (i : Instr) : kindAt i.code = i.ctorIdx := by
  cases i with
  | plain op =>
    have := op.ctorIdx_lt
    show kindAt op.ctorIdx = 0
    simp only [kindAt]; rw [if_pos this]
  | mem op m =>
    have := op.ctorIdx_lt
    show kindAt ({base[1]} + op.ctorIdx) = 1
    simp only [kindAt]; rw [if_neg (by omega), if_pos (by omega)]
  | memLane op m l =>
    have := op.ctorIdx_lt
    show kindAt ({base[2]} + op.ctorIdx) = 2
    simp only [kindAt]; rw [if_neg (by omega), if_neg (by omega), if_pos (by omega)]
  | lane op l =>
    have := op.ctorIdx_lt
    show kindAt ({base[3]} + op.ctorIdx) = 3
    simp only [kindAt]; rw [if_neg (by omega), if_neg (by omega), if_neg (by omega), if_pos (by omega)]
  | _ => rfl

/-- Instructions with the same tree have the same constructor. -/
theorem Instr.same_ctor {{T : StdText}} {{i j : Instr}} (e : i.dbg T = j.dbg T) : j.ctorIdx = i.ctorIdx := by
  rw [← i.kindAt_code, ← j.kindAt_code, allNames_get (i.name_get T) (e ▸ j.name_get T)]

theorem noIdx {{P : Prop}} {{a b : Nat}} (e : a = b) (h : Nat.beq a b = false) : P := by
  subst e; simp at h

'''
allc=[('plain',1),('mem',2),('memLane',3),('lane',2)]+[(c,len(a)) for c,a,_,_ in cs]
for k,(c,n) in enumerate(allc):
    vs=' '.join('abc'[:n])
    o+=f'''theorem Instr.inv_{c} {{j : Instr}} (h : j.ctorIdx = {k}) : ∃ {vs}, j = .{c} {vs} := by
  cases j with
  | {c} {vs} => exact ⟨{', '.join('abc'[:n])}, rfl⟩
  | _ => exact noIdx h rfl

'''
o+='end Wadec\n'
open(B+'Proof/DebugNames.lean','w').write(o)

# the theorem
p=f'''import Verif.Proof.DebugNames

/-! Generated by tools/gen_tells_instr.py: the `Debug` trees of instructions are well formed and determine the
instructions up to the payloads of NaNs. -/

namespace Wadec

open Spec

variable {{T : StdText}}

theorem lanes_inj {{a b : Bytes16}} (h : T.Ok)
    (e : dbg T (a.val.map LaneIdx.mk) = dbg T (b.val.map LaneIdx.mk)) : a = b := by
  have e := Tells.inj h e
  exact Subtype.ext (map_inj' (fun x _ y _ h => by injection h) e)

theorem f32_same (h : T.Ok) {{x y : UInt32}} (e : T.f32 x = T.f32 y) : oneNaN32 x = oneNaN32 y := by
  rcases (h.f32_same x y).1 e with e | ⟨e, e'⟩
  · rw [e]
  · simp only [oneNaN32, e, e', if_true]

theorem f64_same (h : T.Ok) {{x y : UInt64}} (e : T.f64 x = T.f64 y) : oneNaN64 x = oneNaN64 y := by
  rcases (h.f64_same x y).1 e with e | ⟨e, e'⟩
  · rw [e]
  · simp only [oneNaN64, e, e', if_true]

mutual
theorem instr_ok (h : T.Ok) : ∀ i : Instr, (i.dbg T).Ok
  | .plain op => by simp only [Instr.dbg]; exact ok_word (allNames_word op.text_get)
  | .mem op _ => by
    simp only [Instr.dbg]; exact ok_tuple (allNames_word op.text_get) (okI_cons (Tells.ok h _) okI_nil)
  | .memLane op _ _ => by
    simp only [Instr.dbg]
    exact ok_tuple (allNames_word op.text_get) (okI_cons (Tells.ok h _) (okI_cons (Tells.ok h _) okI_nil))
  | .lane op _ => by
    simp only [Instr.dbg]; exact ok_tuple (allNames_word op.text_get) (okI_cons (Tells.ok h _) okI_nil)
'''
def parts(e):
    out=[];d=0;cur=''
    for ch in e:
        if ch in '([':d+=1
        if ch in ')]':d-=1
        if ch==',' and d==0: out.append(cur.strip());cur=''
        else: cur+=ch
    return out+[cur.strip()]
def pok(x):
    m=re.match(r'\.list \(instrsDbg t (\w+)\)$',x)
    if m: return f'(ok_list (instrs_ok h {m.group(1)}))'
    m=re.match(r'instrsOptDbg t (\w+)$',x)
    if m: return f'(instrsOpt_ok h {m.group(1)})'
    m=re.match(r'\.word \(t\.(f\d\d) (\w+)\)$',x)
    if m: return f'(ok_word (h.{m.group(1)}_word _))'
    return '(Tells.ok h _)'
for c,a,n,e in cs:
    r='okI_nil'
    for x in reversed(parts(e)): r=f'(okI_cons {pok(x)} {r})'
    vs=" ".join(v if re.search(r"instrs\w* t "+v+r"\b",e) else "_" for v in a)
    p+=f'  | .{c} {vs} => by\n    simp only [Instr.dbg]\n    exact ok_tuple rfl {r}\n'
p+='''theorem instrs_ok (h : T.Ok) : ∀ is : List Instr, okItems (instrsDbg T is)
  | [] => by simp only [instrsDbg]; exact okI_nil
  | i :: is => by simp only [instrsDbg]; exact okI_cons (instr_ok h i) (instrs_ok h is)
theorem instrsOpt_ok (h : T.Ok) : ∀ o : Option (List Instr), (instrsOptDbg T o).Ok
  | none => by simp only [instrsOptDbg]; exact ok_word rfl
  | some is => by simp only [instrsOptDbg]; exact ok_tuple rfl (okI_cons (ok_list (instrs_ok h is)) okI_nil)
end

mutual
theorem instr_inj (h : T.Ok) : ∀ i j : Instr, i.dbg T = j.dbg T → oneNaN i = oneNaN j
'''
def case(c,a,fields,op):
    n=len(a); a2=[v+"'" for v in a]
    s=f'  | .{c} {" ".join(a)}, j, e => by\n    obtain ⟨{", ".join(a2)}, rfl⟩ := Instr.inv_{c} (Instr.same_ctor e)\n    simp only [Instr.dbg] at e\n'
    if op: s+=f'    have en := PlainOp.text_inj (word_eq e)\n' if c=='plain' else ''
    if c=='plain':
        return s+'    rw [en]\n'
    if op:
        on={'mem':'MemOp','memLane':'MemLaneOp','lane':'LaneOp'}[c]
        s+=f'    have en := {on}.text_inj (by injection e)\n    subst en\n'
        args=list(zip(a[1:],a2[1:],fields))
    else: args=list(zip(a,a2,fields))
    k=len(args); vs=['p','q','r'][:k]
    if k==1: s+=f'    have p := tuple1 e\n'
    else: s+=f'    obtain ⟨{", ".join(vs)}⟩ := tuple{k} e\n'
    fin='rfl'
    for v,(x,x2,f) in zip(vs,args):
        if f.startswith('.list (instrsDbg'): s+=f"    have {v} := instrs_inj h {x} {x2} (list_eq {v})\n"; fin='s'
        elif f.startswith('instrsOptDbg'): s+=f"    have {v} := instrsOpt_inj h {x} {x2} {v}\n"; fin='s'
        elif f.startswith('.word (t.f32'): s+=f'    have {v} := f32_same h (word_eq {v})\n'; fin='s'
        elif f.startswith('.word (t.f64'): s+=f'    have {v} := f64_same h (word_eq {v})\n'; fin='s'
        elif 'LaneIdx.mk' in f: s+=f'    cases lanes_inj h {v}\n'
        else: s+=f'    cases Tells.inj h {v}\n'
    if fin=='rfl': s+='    rfl\n'
    else:
        hs=[v for v,(x,x2,f) in zip(vs,args) if f.startswith(('.list','instrsOpt','.word'))]
        s+=f'    simp only [oneNaN, {", ".join(hs)}]\n'
    return s
p+=case('plain',['op'],[],True)
p+=case('mem',['op','m'],['x'],True)
p+=case('memLane',['op','m','l'],['x','x'],True)
p+=case('lane',['op','l'],['x'],True)
for c,a,n,e in cs: p+=case(c,a,parts(e),False)
p+='''theorem instrs_inj (h : T.Ok) : ∀ is js : List Instr, instrsDbg T is = instrsDbg T js → oneNaNs is = oneNaNs js
  | [], [], _ => rfl
  | [], _ :: _, e => by simp only [instrsDbg] at e; cases e
  | _ :: _, [], e => by simp only [instrsDbg] at e; cases e
  | i :: is, j :: js, e => by
    simp only [instrsDbg, List.cons.injEq] at e
    simp only [oneNaNs, instr_inj h i j e.1, instrs_inj h is js e.2]
theorem instrsOpt_inj (h : T.Ok) : ∀ o o' : Option (List Instr), instrsOptDbg T o = instrsOptDbg T o' →
    oneNaNOpt o = oneNaNOpt o'
  | none, none, _ => rfl
  | none, some _, e => by simp only [instrsOptDbg] at e; cases e
  | some _, none, e => by simp only [instrsOptDbg] at e; cases e
  | some is, some js, e => by
    simp only [instrsOptDbg] at e
    simp only [oneNaNOpt, instrs_inj h is js (list_eq (tuple1 e))]
end

/-! ### The payloads of NaNs are not shown -/

theorem f32_show (h : T.Ok) (x : UInt32) : T.f32 (oneNaN32 x) = T.f32 x := by
  unfold oneNaN32
  split
  · exact (h.f32_same _ _).2 (.inr ⟨by decide, by assumption⟩)
  · rfl

theorem f64_show (h : T.Ok) (x : UInt64) : T.f64 (oneNaN64 x) = T.f64 x := by
  unfold oneNaN64
  split
  · exact (h.f64_same _ _).2 (.inr ⟨by decide, by assumption⟩)
  · rfl

mutual
theorem instr_show (h : T.Ok) (i : Instr) : (oneNaN i).dbg T = i.dbg T := by
  cases i with
  | Block bt is => simp only [oneNaN, Instr.dbg, instrs_show h is]
  | Loop bt is => simp only [oneNaN, Instr.dbg, instrs_show h is]
  | If bt is e => simp only [oneNaN, Instr.dbg, instrs_show h is, instrsOpt_show h e]
  | TryTable bt cs is => simp only [oneNaN, Instr.dbg, instrs_show h is]
  | F32Const x => simp only [oneNaN, Instr.dbg, f32_show h]
  | F64Const x => simp only [oneNaN, Instr.dbg, f64_show h]
  | _ => rfl
theorem instrs_show (h : T.Ok) (is : List Instr) : instrsDbg T (oneNaNs is) = instrsDbg T is := by
  cases is with
  | nil => rfl
  | cons i is => simp only [oneNaNs, instrsDbg, instr_show h i, instrs_show h is]
theorem instrsOpt_show (h : T.Ok) (o : Option (List Instr)) : instrsOptDbg T (oneNaNOpt o) = instrsOptDbg T o := by
  cases o with
  | none => rfl
  | some is => simp only [oneNaNOpt, instrsOptDbg, instrs_show h is]
end

end Wadec
'''
open(B+'Proof/DebugInstr.lean','w').write(p)
