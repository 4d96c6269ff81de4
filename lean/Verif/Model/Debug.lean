import Verif.Core.Syntax
import Verif.Model.Errors

/-! Model of `{:#?}` and `{:?}`: `#[derive(Debug)]` (all types of /repo/src/core and the error types of
/repo/src/decode) describes a value to the builders of `std::fmt` (`debug_tuple`, `debug_struct`,
`debug_list`), and these lay it out.  Here the description is a tree, `Dbg`; the derived impls are the
`Debug` instances of Verif/Model/DebugCore.lean and Verif/Model/DebugErrors.lean.

Not modelled, but parameters (`StdText`): the texts of floating-point numbers, which characters of a string
are written as `\u{…}`, and the description of an `io::Error`. -/

namespace Wadec

/-- What an `impl Debug` tells the formatter (the derives of src/core/*.rs and src/decode/**/*.rs, and the impl at
src/decode/helpers.rs:125-145). -/
inductive Dbg where
  /-- a number, `true`, or the name of a variant or struct without fields -/
  | word (s : String)
  /-- a string; the text between the quotes -/
  | str (s : String)
  /-- the value `()` -/
  | unit
  /-- `f.debug_tuple(name).field(…)…finish()` -/
  | tuple (name : String) (fields : List Dbg)
  /-- `f.debug_struct(name).field(…, …)…finish()` -/
  | struct (name : String) (fields : List (String × Dbg))
  /-- `f.debug_list().entries(…).finish()` -/
  | list (items : List Dbg)
  /-- `format_args!("{name}::{value:#?}")` (src/decode/helpers.rs:134-140) -/
  | path (name : String) (value : Dbg)

/-- The standard library's `PadAdapter`, through which wadec-cli/src/main.rs:26,47 `{:#?}` writes nested values:
four spaces at the start of every line; the flag says whether a line starts here. -/
def pad : Bool → List Char → List Char
  | _, [] => []
  | true, c :: cs => ' ' :: ' ' :: ' ' :: ' ' :: c :: pad (c == '\n') cs
  | false, c :: cs => c :: pad (c == '\n') cs

mutual
/-- wadec-cli/src/main.rs:26,47: what `{:#?}` writes (`std::fmt::builders`, alternate form). -/
def Dbg.pretty : Dbg → List Char
  | .word s => s.toList
  | .str s => '"' :: (s.toList ++ ['"'])
  | .unit => ['(', ')']
  | .tuple n fs => n.toList ++ (match fs with
    | [] => []
    | f :: fs => '(' :: '\n' :: (pad true (f.pretty ++ [',', '\n']) ++ prettyItems fs ++ [')']))
  | .struct n fs => n.toList ++ (match fs with
    | [] => []
    | (k, f) :: fs => ' ' :: '{' :: '\n' ::
      (pad true (k.toList ++ ':' :: ' ' :: (f.pretty ++ [',', '\n'])) ++ prettyFields fs ++ ['}']))
  | .list xs => '[' :: (match xs with
    | [] => [']']
    | x :: xs => '\n' :: (pad true (x.pretty ++ [',', '\n']) ++ prettyItems xs ++ [']']))
  | .path n d => n.toList ++ ':' :: ':' :: d.pretty
/-- the fields of a tuple or the items of a list, each on its own line(s), followed by a comma
(wadec-cli/src/main.rs:26,47) -/
def prettyItems : List Dbg → List Char
  | [] => []
  | f :: fs => pad true (f.pretty ++ [',', '\n']) ++ prettyItems fs
/-- the fields of a struct (wadec-cli/src/main.rs:26,47) -/
def prettyFields : List (String × Dbg) → List Char
  | [] => []
  | (k, f) :: fs => pad true (k.toList ++ ':' :: ' ' :: (f.pretty ++ [',', '\n'])) ++ prettyFields fs
end

mutual
/-- What `{:?}` writes (`std::fmt::builders`); inside `format_args!("{name}::{value:#?}")`
(src/decode/helpers.rs:134-140) it is the alternate form all the same. -/
def Dbg.compact : Dbg → List Char
  | .word s => s.toList
  | .str s => '"' :: (s.toList ++ ['"'])
  | .unit => ['(', ')']
  | .tuple n fs => n.toList ++ (match fs with
    | [] => []
    | f :: fs => '(' :: (f.compact ++ compactItems fs ++ [')']))
  | .struct n fs => n.toList ++ (match fs with
    | [] => []
    | (k, f) :: fs => ' ' :: '{' :: ' ' :: (k.toList ++ ':' :: ' ' :: (f.compact ++ compactFields fs ++ [' ', '}'])))
  | .list xs => '[' :: (match xs with
    | [] => [']']
    | x :: xs => x.compact ++ compactItems xs ++ [']'])
  | .path n d => n.toList ++ ':' :: ':' :: d.pretty
/-- the further fields of a tuple or items of a list (derives of src/core/*.rs, src/decode/**/*.rs: `{:?}`) -/
def compactItems : List Dbg → List Char
  | [] => []
  | f :: fs => ',' :: ' ' :: (f.compact ++ compactItems fs)
/-- the further fields of a struct (derives of src/core/*.rs, src/decode/**/*.rs: `{:?}`) -/
def compactFields : List (String × Dbg) → List Char
  | [] => []
  | (k, f) :: fs => ',' :: ' ' :: (k.toList ++ ':' :: ' ' :: (f.compact ++ compactFields fs))
end

/-- The texts of the standard library that wadec-cli/src/main.rs:26,47 print. -/
structure StdText where
  /-- `{:#?}` of the `f32` with these bits -/
  f32 : UInt32 → String
  /-- `{:#?}` of the `f64` with these bits -/
  f64 : UInt64 → String
  /-- the characters that are not printable (or extend the one before them) -/
  hidden : Char → Bool
  /-- `Debug` of an `io::Error` -/
  io : IoError → Dbg

/-- `#[derive(Debug)]` (src/core/**/*.rs, src/decode/**/*.rs) -/
class Debug (α : Type) where
  dbg : StdText → α → Dbg
export Debug (dbg)

/-- `u8`, `u32`, `u64`, `usize`, `i32`, `i64`: decimal, also in the alternate form
(fields of src/core/**/*.rs) -/
instance : Debug UInt8 := ⟨fun _ n => .word (toString n.toNat)⟩
/-- fields of src/core/**/*.rs -/
instance : Debug UInt32 := ⟨fun _ n => .word (toString n.toNat)⟩
/-- fields of src/core/**/*.rs -/
instance : Debug UInt64 := ⟨fun _ n => .word (toString n.toNat)⟩
/-- fields of src/decode/module.rs:130-176 -/
instance : Debug Nat := ⟨fun _ n => .word (toString n)⟩
/-- src/core/instruction.rs:122 `I32Const(i32)` -/
instance : Debug Int32 := ⟨fun _ n => .word (toString n.toInt)⟩
/-- src/core/instruction.rs:123 `I64Const(i64)` -/
instance : Debug Int64 := ⟨fun _ n => .word (toString n.toInt)⟩
/-- src/core/types/reftype.rs:11 -/
instance : Debug Bool := ⟨fun _ b => .word (if b then "true" else "false")⟩
/-- `Vec<T>`, `[T; n]` (src/core/module.rs:15-159) -/
instance {α : Type} [Debug α] : Debug (List α) := ⟨fun t xs => .list (xs.map (dbg t))⟩
/-- `Option<T>` (src/core/module.rs:15-159) -/
instance {α : Type} [Debug α] : Debug (Option α) :=
  ⟨fun t o => match o with | none => .word "None" | some x => .tuple "Some" [dbg t x]⟩
/-- src/core/instruction.rs:286 `V128Const([u8; 16])` -/
instance : Debug Bytes16 := ⟨fun t v => dbg t v.val⟩
/-- `io::Error`, a parameter (src/decode/integer.rs:17) -/
instance : Debug IoError := ⟨fun t e => t.io e⟩

/-- The characters of a `String` (src/core/mod.rs:35): its UTF-8 bytes decoded.  A `String` is valid UTF-8; what
this gives for other bytes is of no interest. -/
def utf8Chars : List UInt8 → List Char
  | [] => []
  | b :: r =>
    if b < 0x80 then Char.ofNat b.toNat :: utf8Chars r
    else if b < 0xE0 then
      match r with
      | c :: r => Char.ofNat ((b.toNat - 0xC0) * 0x40 + (c.toNat - 0x80)) :: utf8Chars r
      | _ => []
    else if b < 0xF0 then
      match r with
      | c :: d :: r => Char.ofNat ((b.toNat - 0xE0) * 0x1000 + (c.toNat - 0x80) * 0x40 + (d.toNat - 0x80)) :: utf8Chars r
      | _ => []
    else
      match r with
      | c :: d :: e :: r => Char.ofNat ((b.toNat - 0xF0) * 0x40000 + (c.toNat - 0x80) * 0x1000 +
          (d.toNat - 0x80) * 0x40 + (e.toNat - 0x80)) :: utf8Chars r
      | _ => []

/-- `char::escape_debug` as `Debug` of `str` uses it (src/core/mod.rs:35-36, 49, src/core/custom_section.rs:14):
single quotes are left alone. -/
def escapeChar (hidden : Char → Bool) (c : Char) : List Char :=
  if c = '\x00' then ['\\', '0']
  else if c = '\t' then ['\\', 't']
  else if c = '\r' then ['\\', 'r']
  else if c = '\n' then ['\\', 'n']
  else if c = '\\' then ['\\', '\\']
  else if c = '"' then ['\\', '"']
  else if hidden c then '\\' :: 'u' :: '{' :: (Nat.toDigits 16 c.toNat ++ ['}'])
  else [c]

/-- `String` (src/core/mod.rs:35-36, 49, src/core/custom_section.rs:14) -/
instance : Debug Str := ⟨fun t s => .str (String.ofList ((utf8Chars s.bytes).flatMap (escapeChar t.hidden)))⟩

/-- `std::string::FromUtf8Error` and `std::str::Utf8Error`, whose `Debug` is derived
(src/decode/helpers.rs:171) -/
instance : Debug FromUtf8Error := ⟨fun t e => .struct "FromUtf8Error" [("bytes", dbg t e.bytes),
  ("error", .struct "Utf8Error" [("valid_up_to", dbg t e.valid_up_to), ("error_len", dbg t e.error_len)])]⟩

/-- The last part of `std::any::type_name::<E>()` (src/decode/helpers.rs:136-139); the error types that occur
as elements' errors have no type parameters, so it is the name of the type. -/
class TypeName (α : Type) where
  typeName : String
export TypeName (typeName)

end Wadec
