import Verif.Model.OwnExact
import Verif.Model.StdReaders

/-! `decode_module` on a reader with a `read_buf` of its own (C87).

`Read::read_buf` is a provided method that a reader may override (`File`, `Stdin`, `Cursor`, `BufReader`, `&[u8]` do).
`decode_module` never calls it, but std's `default_read_to_end`, which reads the contents of custom sections
(src/decode/sections/custom.rs:20) through `Take` (src/decode/module.rs:224), does, in turns with `read`: `read` into a small buffer on
the stack to find out whether there is anything (left), `read_buf` into the vector otherwise.  Which of the two it calls depends on the
room left in the vector; `pick` leaves it open.  (It is a function of the reader's state, in which a run never is twice when it reads
to the end: every call before the last one makes `weight` less.)  `own n` is the reader's `read_buf` with room for `n` bytes.  (A `read_buf` could
hand out bytes and an error at the same time, which std advises against; here it does not.)

The definitions are those of Model/Io, Model/Sections, Model/Module and Model/OwnExact with the two methods in their places. -/

namespace Wadec

variable {R : Type} [Read R] (own : Nat → R → Except IoError (List UInt8) × R) (pick : R → Bool)

/-- std, `<Take<R> as Read>::read_buf` (for `take` at src/decode/module.rs:224): at limit 0 the inner reader is not called; the limit
goes down by what has been filled. -/
def Take.readBuf (n : Nat) (t : Take R) : Except IoError (List UInt8) × Take R :=
  if t.limit = 0 then (.ok [], t)
  else
    match own (min n t.limit) t.inner with
    | (.ok bs, i) => (.ok bs, { limit := t.limit - bs.length, inner := i })
    | (.error e, i) => (.error e, { limit := t.limit, inner := i })

/-- The loop of std's `default_read_to_end` on `Take` (src/decode/sections/custom.rs:20); sizes as in `readToEndLoop` -/
def readToEndLoopBy : Nat → List UInt8 → Dec (Take R) IoError (List UInt8)
  | 0, _ => Dec.outOfFuel
  | f + 1, acc => fun t =>
    match if pick t.inner then Take.read (Read.room t + 1) t else Take.readBuf own (Read.room t + 1) t with
    | (.ok [], t') => (.ok acc, t')
    | (.ok (b :: bs), t') => readToEndLoopBy f (acc ++ (b :: bs)) t'
    | (.error .interrupted, t') => readToEndLoopBy f acc t'
    | (.error e, t') => (.err e, t')

/-- `reader.read_to_end(&mut contents)` (src/decode/sections/custom.rs:20) into an empty vector -/
def readToEndBy : Dec (Take R) IoError (List UInt8) := fun t =>
  readToEndLoopBy own pick (Read.weight t + 1) [] t

/-- src/decode/sections/custom.rs:15-23 `decode_section_custom` -/
def decodeSectionCustomBy : Dec (Take R) DecodeCustomSectionError CustomSection := do
  let name ← decodeName.mapErr DecodeCustomSectionError.DecodeName
  let contents ← (readToEndBy own pick).mapErr DecodeCustomSectionError.Io
  pure ⟨name, contents⟩

/-- src/decode/module.rs:229-302: the `match section_kind`; nothing changes for the other sections, which are not read to the end. -/
def decodeSectionBodyBy (kind : SectionKind) (st : LoopState) : Dec (Take R) DecodeModuleError LoopState :=
  match kind with
  | .Custom => do
    let s ← (decodeSectionCustomBy own pick).mapErr DecodeModuleError.DecodeCustomSection
    pure { st with module := { st.module with custom_sections := st.module.custom_sections ++ [s] } }
  | kind => decodeSectionBody kind st

/-- src/decode/module.rs:224-318: one iteration of the section loop -/
def decodeSectionBy (h : SectionHeader) (st : LoopState) : Dec R DecodeModuleError LoopState := do
  st.module.validateSectionKindExpected h.kind
  let (st, limit) ← Dec.withTake h.size.toNat (decodeSectionBodyBy own pick h.kind st)
  if limit ≠ 0 then
    Dec.err (.SectionSizeMismatch h.kind h.size (UInt64.ofNat (h.size.toNat - limit)))
  else
    pure { st with module := { st.module with
      section_headers := st.module.section_headers ++ [h]
      parsed_section_kinds :=
        if h.kind ≠ .Custom then st.module.parsed_section_kinds ++ [h.kind]
        else st.module.parsed_section_kinds } }

variable (exact : Nat → Dec R IoError (List UInt8))

/-- src/decode/module.rs:223-319: the loop over the sections, on a reader with its own `read_exact` and `read_buf` -/
def sectionLoopOwn : Nat → LoopState → Dec R DecodeModuleError LoopState
  | 0, _ => Dec.outOfFuel
  | n + 1, st => do
    let h ← (decodeSectionHeaderBy exact).mapErr DecodeModuleError.DecodeSectionHeader
    match h with
    | none => pure st
    | some h => do
      let st ← decodeSectionBy own pick h st
      sectionLoopOwn n st

/-- src/decode/module.rs:207-351 `decode_module`, on a reader with its own `read_exact` and `read_buf` -/
def decodeModuleOwn : Dec R DecodeModuleError Module := fun r =>
  (do
    (parsePreambleBy exact).mapErr DecodeModuleError.ParsePreamble
    let st ← sectionLoopOwn own pick exact (Read.weight r + 1) ⟨Module.default, false, false⟩
    finalChecks st : Dec R DecodeModuleError Module) r

/-! ### `read_buf` of readers of std -/

/-- std, `<&[u8] as Read>::read_buf` (`input`, src/decode/module.rs:207), on a `Cursor`: copies as much as fits, as `read` does. -/
def ByteCursor.readBuf (n : Nat) (s : ByteCursor) : Except IoError (List UInt8) × ByteCursor :=
  (.ok (s.left.take n), { s with pos := s.pos + (s.left.take n).length })

/-- std, `<VecDeque<u8> as Read>::read_buf` (`input`, src/decode/module.rs:207): from the first slice only, as `read` -/
def VecDeque.readBuf (n : Nat) (s : VecDeque) : Except IoError (List UInt8) × VecDeque :=
  (.ok (s.front.take n), s.drain (s.front.take n).length)

/-- std, `<BufReader<R> as Read>::read_buf` (`input`, src/decode/module.rs:207): if there is nothing in the buffer, room for no less
than the buffer is filled by the inner reader's `read_buf`, and otherwise the buffer is, and what fits copied from there. -/
def BufReader.readBuf (n : Nat) (s : BufReader R) : Except IoError (List UInt8) × BufReader R :=
  match s.buf with
  | [] =>
    if s.cap ≤ n then
      match own n s.inner with
      | (res, r') => (res, { s with inner := r' })
    else
      match own s.cap s.inner with
      | (.ok bs, r') => (.ok (bs.take n), { s with buf := bs.drop n, inner := r' })
      | (.error e, r') => (.error e, { s with inner := r' })
  | b :: bs => (.ok ((b :: bs).take n), { s with buf := (b :: bs).drop n })

end Wadec
