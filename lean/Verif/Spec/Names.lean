import Lean.Elab.SyntheticMVars
import Lean.Elab.Match
import Verif.Model.Debug

/-! What a `Debug` text of a value has to name (C70): its variant, and in the order of declaration its fields.

`name_of% e` is the name of the constructor of `e` as it is declared (of the type, if the only constructor is `mk`), and `parts_of% t e`
the list of the trees of its fields in the order of their declaration, and `labels_of% e` the list of the names of its fields.  `type_name% T` is the name of the type.  All are read off the declaration of the type, not off the
`Debug` instances. -/

namespace Wadec.Spec

open Lean Elab Term Meta

/-- the constructors of the type of `e`: for each, its full name and the number of its fields -/
private def ctorsOf (e : TSyntax `term) : TermElabM (Array (Name × Nat)) := do
  let e ← elabTerm e none
  synthesizeSyntheticMVarsNoPostponing
  let ty ← whnf (← instantiateMVars (← inferType e))
  let .const n _ := ty.getAppFn | throwError "not an inductive type"
  let info ← getConstInfoInduct n
  info.ctors.toArray.mapM fun c => do return (c, (← getConstInfoCtor c).numFields)

private def lastName : Name → String
  | .str p "mk" => lastName p
  | .str _ s => s
  | _ => ""

elab "name_of% " e:term:max : term <= ty => do
  let cs ← ctorsOf e
  let pats ← cs.mapM fun (c, k) => do
    let us ← (Array.range k).mapM fun _ => `(_)
    `($(mkIdent c):ident $us*)
  let rhs := cs.map fun (c, _) => Syntax.mkStrLit (lastName c)
  elabTerm (← `(match $e:term with $[| $pats => $rhs]*)) ty

elab "parts_of% " t:term:max e:term:max : term <= ty => do
  let cs ← ctorsOf e
  let names := cs.map fun (_, k) => (Array.range k).map fun i => mkIdent (Name.mkSimple s!"x{i}")
  let pats ← (cs.zip names).mapM fun ((c, _), xs) => `($(mkIdent c):ident $xs*)
  let rhs ← names.mapM fun xs => do
    let ds ← xs.mapM fun x => `(dbg $t $x)
    `([$ds,*])
  elabTerm (← `(match $e:term with $[| $pats => $rhs]*)) ty

elab "labels_of% " e:term:max : term <= ty => do
  let cs ← ctorsOf e
  let pats ← cs.mapM fun (c, k) => do
    let us ← (Array.range k).mapM fun _ => `(_)
    `($(mkIdent c):ident $us*)
  let rhs ← cs.mapM fun (c, k) => do
    let info ← getConstInfoCtor c
    forallTelescope info.type fun xs _ => do
      let ns ← (xs.extract info.numParams (info.numParams + k)).mapM fun x => do
        return Syntax.mkStrLit (← x.fvarId!.getUserName).toString
      `([$ns,*])
  elabTerm (← `(match $e:term with $[| $pats => $rhs]*)) ty

elab "type_name% " e:term:max : term => do
  let ty ← whnf (← elabTerm e none)
  let .const n _ := ty.getAppFn | throwError "not an inductive type"
  return mkStrLit (lastName n)

/-- The text of the tree begins with `name`, and its parts are `parts`, in this order; if it writes labels before them, these are
`labels`. -/
def Names : Dbg → String → List Dbg → List String → Prop
  | .word s, name, parts, _ => s = name ∧ parts = []
  | .tuple s fs, name, parts, _ => s = name ∧ fs = parts
  | .struct s fs, name, parts, labels => s = name ∧ fs = labels.zip parts ∧ labels.length = parts.length
  | _, _, _, _ => False

/-- The text `cs` is the number `n` written in this base, without leading zeros. -/
inductive Numeral (base : Nat) : Nat → List Char → Prop
  | digit {d : Nat} {c : Char} : d < base → "0123456789abcdef".toList[d]? = some c → Numeral base d [c]
  | more {n d : Nat} {cs : List Char} {c : Char} : 0 < n → Numeral base n cs → d < base →
      "0123456789abcdef".toList[d]? = some c → Numeral base (n * base + d) (cs ++ [c])

/-- The text `cs` is the character `c` as a string literal shows it; `hidden` says which characters without an escape of their own
are written by their number. -/
inductive Escapes (hidden : Char → Bool) : Char → List Char → Prop
  | nul : Escapes hidden '\x00' ['\\', '0']
  | tab : Escapes hidden '\t' ['\\', 't']
  | cr : Escapes hidden '\r' ['\\', 'r']
  | lf : Escapes hidden '\n' ['\\', 'n']
  | backslash : Escapes hidden '\\' ['\\', '\\']
  | quote : Escapes hidden '"' ['\\', '"']
  | number {c : Char} {ds : List Char} : c ∉ ['\x00', '\t', '\r', '\n', '\\', '"'] → hidden c = true →
      Numeral 16 c.toNat ds → Escapes hidden c ("\\u{".toList ++ ds ++ ['}'])
  | plain {c : Char} : c ∉ ['\x00', '\t', '\r', '\n', '\\', '"'] → hidden c = false → Escapes hidden c [c]

/-- The tree is a single word: this number in decimal. -/
def WritesNat (d : Dbg) (n : Nat) : Prop := ∃ s, d = .word s ∧ Numeral 10 n s.toList

/-- The tree is a single word: this number in decimal, after a minus sign if it is negative. -/
def WritesInt (d : Dbg) (n : Int) : Prop :=
  ∃ s cs, d = .word s ∧ s.toList = (if n < 0 then ['-'] else []) ++ cs ∧ Numeral 10 n.natAbs cs

end Wadec.Spec
