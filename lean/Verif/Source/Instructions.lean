import Verif.Source.Types

/-! Generated by tools/rs2lean.py from src/decode/instructions.rs.
Do not edit.  The numbers in the comments are the source lines. -/

namespace Wadec.Source

variable {R : Type} [Read R]

/-- src/decode/instructions.rs:1085-1110 -/
def BlockType.decode : Dec R BlockTypeError BlockType := do
  let b ← q (Dec.mapErr BlockTypeError.ReadMarkerByte Source.read_byte)  -- 1086
  if b = 0x40 then  -- 1087
    return BlockType.Empty  -- 1088
  Dec.withChain b do  -- 1091
    if let .ok t ← attempt Source.ValType.decode then  -- 1092
      return BlockType.T t  -- 1093
    Dec.withChain b do  -- 1101
      let x ← q Source.decode_s33  -- 1102
      if x < 0 then  -- 1103
        Dec.err (BlockTypeError.NegativeTypeIndex x)  -- 1104
      let x ← unwrap_ok (tryFrom (β := UInt32) x)  -- 1107
      return BlockType.I x  -- 1109

/-- src/decode/instructions.rs:1129-1147 -/
def Catch.decode : Dec R CatchError Catch := do
  let marker ← q Source.read_byte  -- 1130
  if marker = 0x00 then  -- 1132
    let x ← q Source.TagIdx.decode  -- 1134
    let l ← q Source.LabelIdx.decode  -- 1135
    return Catch.Catch x l  -- 1136
  else if marker = 0x01 then
    let x ← q Source.TagIdx.decode  -- 1139
    let l ← q Source.LabelIdx.decode  -- 1140
    return Catch.CatchRef x l  -- 1141
  else if marker = 0x02 then
    return Catch.CatchAll (← q Source.LabelIdx.decode)  -- 1143
  else if marker = 0x03 then
    return Catch.CatchAllRef (← q Source.LabelIdx.decode)  -- 1144
  else
    let n := marker
    Dec.err (CatchError.InvalidMarkerByte n)  -- 1145

/-- src/decode/instructions.rs:1063-1065 -/
def LaneIdx.new (value : UInt8) : LaneIdx :=
  LaneIdx.mk value

/-- src/decode/instructions.rs:1067-1069 -/
def LaneIdx.decode : Dec R LaneIdxError LaneIdx := do
  return Source.LaneIdx.new (← q Source.read_byte)  -- 1068

/-- src/decode/instructions.rs:1037-1055 -/
def Memarg.decode : Dec R MemargError Memarg := do
  let n ← q (Dec.mapErr MemargError.Align Source.decode_u32)  -- 1038
  let (mem_idx, align) ← if n < (← pow (2 : UInt32) 6) then  -- 1040
      pure (MemIdx.mk 0, n)  -- 1041
    else if n < (← pow (2 : UInt32) 7) then
      pure ((← q Source.MemIdx.decode), (← sub n (← pow (2 : UInt32) 6)))  -- 1043
    else
      Dec.err (MemargError.InvalidFlagsBit n)  -- 1045
  let offset ← q (Dec.mapErr MemargError.Offset Source.decode_u64)  -- 1048
  return ({ mem_idx := mem_idx, align := align, offset := offset } : Memarg)  -- 1050

/-- src/decode/instructions.rs:1150-1158 -/
def decode_castop : Dec R ControlError (Bool × Bool) := do
  let x1 ← q (Dec.mapErr ControlError.ReadCastNullabilityMarker Source.read_byte)  -- 1151
  if x1 = 0x00 then
    return (false, false)  -- 1152
  else if x1 = 0x01 then
    return (true, false)  -- 1153
  else if x1 = 0x02 then
    return (false, true)  -- 1154
  else if x1 = 0x03 then
    return (true, true)  -- 1155
  else
    let n := x1
    Dec.err (ControlError.InvalidCastNullabilityMarker n)  -- 1156

set_option maxRecDepth 100000 in
/-- src/decode/instructions.rs:203-1012 the body; `self_parse` stands for the recursive call, `fuel` for the steps granted to a loop -/
def Instruction.parse_body (self_parse : Dec R ParseError ParseResult) (fuel : Nat) : Dec R ParseError ParseResult := do
  let mut opcode := [(0 : UInt8)]  -- 204
  opcode ← q (readExact opcode.length)  -- 205
  let ins ← do  -- 207
      let x1 ← index opcode 0
      if x1 = 0x0B then
        return ParseResult.End  -- 208
      else if x1 = 0x05 then
        return ParseResult.Else  -- 209
      else if x1 = 0x00 then
        pure Source.Instruction.Unreachable  -- 212
      else if x1 = 0x01 then
        pure Source.Instruction.Nop  -- 213
      else if x1 = 0x1A then
        pure Source.Instruction.Drop  -- 214
      else if x1 = 0x1B then
        pure (Source.Instruction.Select none)  -- 215
      else if x1 = 0x1C then
        pure (Source.Instruction.Select (some ((← q (Dec.mapErr ParametricError.DecodeList (Source.decode_list (FnMut.of Source.ValType.decode)))).1)))
      else if 0x02 ≤ x1 ∧ x1 ≤ 0x04 then
        let op := x1
        let bt ← q (Dec.mapErr ControlError.BlockType Source.BlockType.decode)  -- 222
        let mut in1 := []  -- 223
        let mut parsed := default  -- 224
        for _ in Fuel.mk fuel do  -- 226
          parsed ← q self_parse  -- 227
          match parsed with  -- 228
          | ParseResult.Instruction i => in1 := in1 ++ [i]  -- 229
          | ParseResult.End => break  -- 230
          | ParseResult.Else =>
            if op = 0x04 then  -- 232
              break  -- 233
            else
              Dec.err (From.from_ ControlError.UnexpectedElse)  -- 235
        if op = 0x02 then  -- 241
          pure (Source.Instruction.Block bt in1)  -- 242
        else if op = 0x03 then
          pure (Source.Instruction.Loop bt in1)  -- 243
        else if op = 0x04 then
          match parsed with  -- 244
          | ParseResult.End => pure (Source.Instruction.If bt in1 none)  -- 245
          | ParseResult.Else =>
            let mut in2 := []  -- 247
            for _ in Fuel.mk fuel do  -- 248
              parsed ← q self_parse  -- 249
              match parsed with  -- 250
              | ParseResult.Instruction i => in2 := in2 ++ [i]  -- 251
              | ParseResult.End => break  -- 252
              | ParseResult.Else => Dec.err (From.from_ ControlError.UnexpectedElse)  -- 254
            pure (Source.Instruction.If bt in1 (some in2))  -- 258
          | _ => Dec.panic  -- 260
        else
          Dec.panic  -- 262
      else if x1 = 0x08 then
        pure (Source.Instruction.Throw (← q (Dec.mapErr ControlError.TagIdx Source.TagIdx.decode)))
      else if x1 = 0x0A then
        pure Source.Instruction.ThrowRef  -- 266
      else if x1 = 0x0C then
        pure (Source.Instruction.Br (← q (Dec.mapErr ControlError.LabelIdx Source.LabelIdx.decode)))
      else if x1 = 0x0D then
        pure (Source.Instruction.BrIf (← q (Dec.mapErr ControlError.LabelIdx Source.LabelIdx.decode)))
      else if x1 = 0x0E then
        let (l, _) ← q (Dec.mapErr ControlError.DecodeLabelIdxVector (Source.decode_list (FnMut.of Source.LabelIdx.decode)))
        let ln ← q (Dec.mapErr ControlError.LabelIdx Source.LabelIdx.decode)  -- 272
        pure (Source.Instruction.BrTable l ln)  -- 273
      else if x1 = 0x0F then
        pure Source.Instruction.Return  -- 275
      else if x1 = 0x10 then
        pure (Source.Instruction.Call (← q (Dec.mapErr ControlError.FuncIdx Source.FuncIdx.decode)))
      else if x1 = 0x11 then
        let y ← q (Dec.mapErr ControlError.TypeIdx Source.TypeIdx.decode)  -- 278
        let x ← q (Dec.mapErr ControlError.TableIdx Source.TableIdx.decode)  -- 279
        pure (Source.Instruction.CallIndirect x y)  -- 280
      else if x1 = 0x12 then
        pure (Source.Instruction.ReturnCall (← q (Dec.mapErr ControlError.FuncIdx Source.FuncIdx.decode)))
      else if x1 = 0x13 then
        let y ← q (Dec.mapErr ControlError.TypeIdx Source.TypeIdx.decode)  -- 286
        let x ← q (Dec.mapErr ControlError.TableIdx Source.TableIdx.decode)  -- 287
        pure (Source.Instruction.ReturnCallIndirect x y)  -- 288
      else if x1 = 0x14 then
        pure (Source.Instruction.CallRef (← q (Dec.mapErr ControlError.TypeIdx Source.TypeIdx.decode)))
      else if x1 = 0x15 then
        pure (Source.Instruction.ReturnCallRef (← q (Dec.mapErr ControlError.TypeIdx Source.TypeIdx.decode)))
      else if x1 = 0x1F then
        let bt ← q (Dec.mapErr ControlError.BlockType Source.BlockType.decode)  -- 295
        let (c, _) ← q (Dec.mapErr ControlError.DecodeCatchListError (Source.decode_list (FnMut.of Source.Catch.decode)))
        let mut ins := []  -- 299
        let mut parsed := default  -- 300
        for _ in Fuel.mk fuel do  -- 301
          parsed ← q self_parse  -- 302
          match parsed with  -- 303
          | ParseResult.Instruction i => ins := ins ++ [i]  -- 304
          | ParseResult.End => break  -- 305
          | ParseResult.Else => Dec.err (From.from_ ControlError.UnexpectedElse)  -- 306
        pure (Source.Instruction.TryTable bt c ins)  -- 310
      else if x1 = 0xD5 then
        pure (Source.Instruction.BrOnNull (← q (Dec.mapErr ControlError.LabelIdx Source.LabelIdx.decode)))
      else if x1 = 0xD6 then
        pure (Source.Instruction.BrOnNonNull (← q (Dec.mapErr ControlError.LabelIdx Source.LabelIdx.decode)))
      else if x1 = 0xD0 then
        pure (Source.Instruction.RefNull (← q (Dec.mapErr ReferenceError.HeapType Source.HeapType.decode)))
      else if x1 = 0xD1 then
        pure Source.Instruction.RefIsNull  -- 325
      else if x1 = 0xD2 then
        pure (Source.Instruction.RefFunc (← q (Dec.mapErr ReferenceError.FuncIdx Source.FuncIdx.decode)))
      else if x1 = 0xD3 then
        pure Source.Instruction.RefEq  -- 327
      else if x1 = 0xD4 then
        pure Source.Instruction.RefAsNonNull  -- 328
      else if x1 = 0xFB then
        let op ← q (Dec.mapErr ReferenceError.ReadSubOpcode Source.decode_u32)  -- 332
        if op = 0 then  -- 333
          pure (Source.Instruction.StructNew (← q (Dec.mapErr AggregateError.TypeIdx Source.TypeIdx.decode)))
        else if op = 1 then
          pure (Source.Instruction.StructNewDefault (← q (Dec.mapErr AggregateError.TypeIdx Source.TypeIdx.decode)))
        else if op = 2 then
          let t ← q (Dec.mapErr AggregateError.TypeIdx Source.TypeIdx.decode)  -- 342
          let f ← q (Dec.mapErr AggregateError.FieldIndex Source.decode_u32)  -- 343
          pure (Source.Instruction.StructGet t f)  -- 344
        else if op = 3 then
          let t ← q (Dec.mapErr AggregateError.TypeIdx Source.TypeIdx.decode)  -- 347
          let f ← q (Dec.mapErr AggregateError.FieldIndex Source.decode_u32)  -- 348
          pure (Source.Instruction.StructGetS t f)  -- 349
        else if op = 4 then
          let t ← q (Dec.mapErr AggregateError.TypeIdx Source.TypeIdx.decode)  -- 352
          let f ← q (Dec.mapErr AggregateError.FieldIndex Source.decode_u32)  -- 353
          pure (Source.Instruction.StructGetU t f)  -- 354
        else if op = 5 then
          let t ← q (Dec.mapErr AggregateError.TypeIdx Source.TypeIdx.decode)  -- 357
          let f ← q (Dec.mapErr AggregateError.FieldIndex Source.decode_u32)  -- 358
          pure (Source.Instruction.StructSet t f)  -- 359
        else if op = 6 then
          pure (Source.Instruction.ArrayNew (← q (Dec.mapErr AggregateError.TypeIdx Source.TypeIdx.decode)))
        else if op = 7 then
          pure (Source.Instruction.ArrayNewDefault (← q (Dec.mapErr AggregateError.TypeIdx Source.TypeIdx.decode)))
        else if op = 8 then
          let t ← q (Dec.mapErr AggregateError.TypeIdx Source.TypeIdx.decode)  -- 368
          let n ← q (Dec.mapErr AggregateError.ArrayFixedLength Source.decode_u32)  -- 369
          pure (Source.Instruction.ArrayNewFixed t n)  -- 370
        else if op = 9 then
          let t ← q (Dec.mapErr AggregateError.TypeIdx Source.TypeIdx.decode)  -- 373
          let d ← q (Dec.mapErr AggregateError.DataIdx Source.DataIdx.decode)  -- 374
          pure (Source.Instruction.ArrayNewData t d)  -- 375
        else if op = 10 then
          let t ← q (Dec.mapErr AggregateError.TypeIdx Source.TypeIdx.decode)  -- 378
          let e_ ← q (Dec.mapErr AggregateError.ElemIdx Source.ElemIdx.decode)  -- 379
          pure (Source.Instruction.ArrayNewElem t e_)  -- 380
        else if op = 11 then
          pure (Source.Instruction.ArrayGet (← q (Dec.mapErr AggregateError.TypeIdx Source.TypeIdx.decode)))
        else if op = 12 then
          pure (Source.Instruction.ArrayGetS (← q (Dec.mapErr AggregateError.TypeIdx Source.TypeIdx.decode)))
        else if op = 13 then
          pure (Source.Instruction.ArrayGetU (← q (Dec.mapErr AggregateError.TypeIdx Source.TypeIdx.decode)))
        else if op = 14 then
          pure (Source.Instruction.ArraySet (← q (Dec.mapErr AggregateError.TypeIdx Source.TypeIdx.decode)))
        else if op = 15 then
          pure Source.Instruction.ArrayLen  -- 394
        else if op = 16 then
          pure (Source.Instruction.ArrayFill (← q (Dec.mapErr AggregateError.TypeIdx Source.TypeIdx.decode)))
        else if op = 17 then
          let dst ← q (Dec.mapErr AggregateError.TypeIdx Source.TypeIdx.decode)  -- 399
          let src ← q (Dec.mapErr AggregateError.TypeIdx Source.TypeIdx.decode)  -- 400
          pure (Source.Instruction.ArrayCopy dst src)  -- 401
        else if op = 18 then
          let t ← q (Dec.mapErr AggregateError.TypeIdx Source.TypeIdx.decode)  -- 404
          let d ← q (Dec.mapErr AggregateError.DataIdx Source.DataIdx.decode)  -- 405
          pure (Source.Instruction.ArrayInitData t d)  -- 406
        else if op = 19 then
          let t ← q (Dec.mapErr AggregateError.TypeIdx Source.TypeIdx.decode)  -- 409
          let e_ ← q (Dec.mapErr AggregateError.ElemIdx Source.ElemIdx.decode)  -- 410
          pure (Source.Instruction.ArrayInitElem t e_)  -- 411
        else if op = 26 then
          pure Source.Instruction.AnyConvertExtern  -- 413
        else if op = 27 then
          pure Source.Instruction.ExternConvertAny  -- 414
        else if op = 28 then
          pure Source.Instruction.RefI31  -- 415
        else if op = 29 then
          pure Source.Instruction.I31GetS  -- 416
        else if op = 30 then
          pure Source.Instruction.I31GetU  -- 417
        else if 20 ≤ op ∧ op ≤ 23 then
          let ht ← q (Dec.mapErr ReferenceError.HeapType Source.HeapType.decode)  -- 421
          if op = 20 then  -- 422
            pure (Source.Instruction.RefTest ({ nullable := false, ht := ht } : RefType))  -- 423
          else if op = 21 then
            pure (Source.Instruction.RefTest ({ nullable := true, ht := ht } : RefType))  -- 427
          else if op = 22 then
            pure (Source.Instruction.RefCast ({ nullable := false, ht := ht } : RefType))  -- 428
          else if op = 23 then
            pure (Source.Instruction.RefCast ({ nullable := true, ht := ht } : RefType))  -- 432
          else
            Dec.panic  -- 433
        else if op = 24 ∨ op = 25 then
          let (nullable1, nullable2) ← q Source.decode_castop  -- 439
          let l ← q (Dec.mapErr ControlError.LabelIdx Source.LabelIdx.decode)  -- 440
          let ht1 ← q (Dec.mapErr ControlError.HeapType Source.HeapType.decode)  -- 441
          let ht2 ← q (Dec.mapErr ControlError.HeapType Source.HeapType.decode)  -- 442
          let rt1 := ({ nullable := nullable1, ht := ht1 } : RefType)  -- 443
          let rt2 := ({ nullable := nullable2, ht := ht2 } : RefType)  -- 447
          if op = 24 then  -- 452
            pure (Source.Instruction.BrOnCast l rt1 rt2)  -- 453
          else
            pure (Source.Instruction.BrOnCastFail l rt1 rt2)  -- 455
        else
          let n := op
          Dec.err (ParseError.InvalidMarkerByteAfterFB n)  -- 459
      else if x1 = 0x20 then
        pure (Source.Instruction.LocalGet (← q (Dec.mapErr VariableError.LocalIdx Source.LocalIdx.decode)))
      else if x1 = 0x21 then
        pure (Source.Instruction.LocalSet (← q (Dec.mapErr VariableError.LocalIdx Source.LocalIdx.decode)))
      else if x1 = 0x22 then
        pure (Source.Instruction.LocalTee (← q (Dec.mapErr VariableError.LocalIdx Source.LocalIdx.decode)))
      else if x1 = 0x23 then
        pure (Source.Instruction.GlobalGet (← q (Dec.mapErr VariableError.GlobalIdx Source.GlobalIdx.decode)))
      else if x1 = 0x24 then
        pure (Source.Instruction.GlobalSet (← q (Dec.mapErr VariableError.GlobalIdx Source.GlobalIdx.decode)))
      else if x1 = 0x25 then
        pure (Source.Instruction.TableGet (← q (Dec.mapErr TableError.TableIdx Source.TableIdx.decode)))
      else if x1 = 0x26 then
        pure (Source.Instruction.TableSet (← q (Dec.mapErr TableError.TableIdx Source.TableIdx.decode)))
      else if 0x28 ≤ x1 ∧ x1 ≤ 0x3E then
        let op := x1
        let m ← q (Dec.mapErr MemoryError.DecodeMemarg Source.Memarg.decode)  -- 486
        if op = 0x28 then  -- 487
          pure (Source.Instruction.I32Load m)  -- 488
        else if op = 0x29 then
          pure (Source.Instruction.I64Load m)  -- 489
        else if op = 0x2A then
          pure (Source.Instruction.F32Load m)  -- 490
        else if op = 0x2B then
          pure (Source.Instruction.F64Load m)  -- 491
        else if op = 0x2C then
          pure (Source.Instruction.I32Load8s m)  -- 492
        else if op = 0x2D then
          pure (Source.Instruction.I32Load8u m)  -- 493
        else if op = 0x2E then
          pure (Source.Instruction.I32Load16s m)  -- 494
        else if op = 0x2F then
          pure (Source.Instruction.I32Load16u m)  -- 495
        else if op = 0x30 then
          pure (Source.Instruction.I64Load8s m)  -- 496
        else if op = 0x31 then
          pure (Source.Instruction.I64Load8u m)  -- 497
        else if op = 0x32 then
          pure (Source.Instruction.I64Load16s m)  -- 498
        else if op = 0x33 then
          pure (Source.Instruction.I64Load16u m)  -- 499
        else if op = 0x34 then
          pure (Source.Instruction.I64Load32s m)  -- 500
        else if op = 0x35 then
          pure (Source.Instruction.I64Load32u m)  -- 501
        else if op = 0x36 then
          pure (Source.Instruction.I32Store m)  -- 502
        else if op = 0x37 then
          pure (Source.Instruction.I64Store m)  -- 503
        else if op = 0x38 then
          pure (Source.Instruction.F32Store m)  -- 504
        else if op = 0x39 then
          pure (Source.Instruction.F64Store m)  -- 505
        else if op = 0x3A then
          pure (Source.Instruction.I32Store8 m)  -- 506
        else if op = 0x3B then
          pure (Source.Instruction.I32Store16 m)  -- 507
        else if op = 0x3C then
          pure (Source.Instruction.I64Store8 m)  -- 508
        else if op = 0x3D then
          pure (Source.Instruction.I64Store16 m)  -- 509
        else if op = 0x3E then
          pure (Source.Instruction.I64Store32 m)  -- 510
        else
          Dec.panic  -- 511
      else if x1 = 0x3F then
        pure (Source.Instruction.MemorySize (← q (Dec.mapErr MemoryError.DecodeMemIdx Source.MemIdx.decode)))
      else if x1 = 0x40 then
        pure (Source.Instruction.MemoryGrow (← q (Dec.mapErr MemoryError.DecodeMemIdx Source.MemIdx.decode)))
      else if x1 = 0x41 then
        pure (Source.Instruction.I32Const (← q (Dec.mapErr NumericError.DecodeI32 Source.decode_i32)))
      else if x1 = 0x42 then
        pure (Source.Instruction.I64Const (← q (Dec.mapErr NumericError.DecodeI64 Source.decode_i64)))
      else if x1 = 0x43 then
        pure (Source.Instruction.F32Const (← q (Dec.mapErr NumericError.DecodeF32 Source.decode_f32)))
      else if x1 = 0x44 then
        pure (Source.Instruction.F64Const (← q (Dec.mapErr NumericError.DecodeF64 Source.decode_f64)))
      else if x1 = 0x45 then
        pure Source.Instruction.I32Eqz  -- 527
      else if x1 = 0x46 then
        pure Source.Instruction.I32Eq  -- 528
      else if x1 = 0x47 then
        pure Source.Instruction.I32Ne  -- 529
      else if x1 = 0x48 then
        pure Source.Instruction.I32LtS  -- 530
      else if x1 = 0x49 then
        pure Source.Instruction.I32LtU  -- 531
      else if x1 = 0x4A then
        pure Source.Instruction.I32GtS  -- 532
      else if x1 = 0x4B then
        pure Source.Instruction.I32GtU  -- 533
      else if x1 = 0x4C then
        pure Source.Instruction.I32LeS  -- 534
      else if x1 = 0x4D then
        pure Source.Instruction.I32LeU  -- 535
      else if x1 = 0x4E then
        pure Source.Instruction.I32GeS  -- 536
      else if x1 = 0x4F then
        pure Source.Instruction.I32GeU  -- 537
      else if x1 = 0x50 then
        pure Source.Instruction.I64Eqz  -- 538
      else if x1 = 0x51 then
        pure Source.Instruction.I64Eq  -- 539
      else if x1 = 0x52 then
        pure Source.Instruction.I64Ne  -- 540
      else if x1 = 0x53 then
        pure Source.Instruction.I64LtS  -- 541
      else if x1 = 0x54 then
        pure Source.Instruction.I64LtU  -- 542
      else if x1 = 0x55 then
        pure Source.Instruction.I64GtS  -- 543
      else if x1 = 0x56 then
        pure Source.Instruction.I64GtU  -- 544
      else if x1 = 0x57 then
        pure Source.Instruction.I64LeS  -- 545
      else if x1 = 0x58 then
        pure Source.Instruction.I64LeU  -- 546
      else if x1 = 0x59 then
        pure Source.Instruction.I64GeS  -- 547
      else if x1 = 0x5A then
        pure Source.Instruction.I64GeU  -- 548
      else if x1 = 0x5B then
        pure Source.Instruction.F32Eq  -- 549
      else if x1 = 0x5C then
        pure Source.Instruction.F32Ne  -- 550
      else if x1 = 0x5D then
        pure Source.Instruction.F32Lt  -- 551
      else if x1 = 0x5E then
        pure Source.Instruction.F32Gt  -- 552
      else if x1 = 0x5F then
        pure Source.Instruction.F32Le  -- 553
      else if x1 = 0x60 then
        pure Source.Instruction.F32Ge  -- 554
      else if x1 = 0x61 then
        pure Source.Instruction.F64Eq  -- 555
      else if x1 = 0x62 then
        pure Source.Instruction.F64Ne  -- 556
      else if x1 = 0x63 then
        pure Source.Instruction.F64Lt  -- 557
      else if x1 = 0x64 then
        pure Source.Instruction.F64Gt  -- 558
      else if x1 = 0x65 then
        pure Source.Instruction.F64Le  -- 559
      else if x1 = 0x66 then
        pure Source.Instruction.F64Ge  -- 560
      else if x1 = 0x67 then
        pure Source.Instruction.I32Clz  -- 561
      else if x1 = 0x68 then
        pure Source.Instruction.I32Ctz  -- 562
      else if x1 = 0x69 then
        pure Source.Instruction.I32Popcnt  -- 563
      else if x1 = 0x6A then
        pure Source.Instruction.I32Add  -- 564
      else if x1 = 0x6B then
        pure Source.Instruction.I32Sub  -- 565
      else if x1 = 0x6C then
        pure Source.Instruction.I32Mul  -- 566
      else if x1 = 0x6D then
        pure Source.Instruction.I32DivS  -- 567
      else if x1 = 0x6E then
        pure Source.Instruction.I32DivU  -- 568
      else if x1 = 0x6F then
        pure Source.Instruction.I32RemS  -- 569
      else if x1 = 0x70 then
        pure Source.Instruction.I32RemU  -- 570
      else if x1 = 0x71 then
        pure Source.Instruction.I32And  -- 571
      else if x1 = 0x72 then
        pure Source.Instruction.I32Or  -- 572
      else if x1 = 0x73 then
        pure Source.Instruction.I32Xor  -- 573
      else if x1 = 0x74 then
        pure Source.Instruction.I32Shl  -- 574
      else if x1 = 0x75 then
        pure Source.Instruction.I32ShrS  -- 575
      else if x1 = 0x76 then
        pure Source.Instruction.I32ShrU  -- 576
      else if x1 = 0x77 then
        pure Source.Instruction.I32Rotl  -- 577
      else if x1 = 0x78 then
        pure Source.Instruction.I32Rotr  -- 578
      else if x1 = 0x79 then
        pure Source.Instruction.I64Clz  -- 579
      else if x1 = 0x7A then
        pure Source.Instruction.I64Ctz  -- 580
      else if x1 = 0x7B then
        pure Source.Instruction.I64Popcnt  -- 581
      else if x1 = 0x7C then
        pure Source.Instruction.I64Add  -- 582
      else if x1 = 0x7D then
        pure Source.Instruction.I64Sub  -- 583
      else if x1 = 0x7E then
        pure Source.Instruction.I64Mul  -- 584
      else if x1 = 0x7F then
        pure Source.Instruction.I64DivS  -- 585
      else if x1 = 0x80 then
        pure Source.Instruction.I64DivU  -- 586
      else if x1 = 0x81 then
        pure Source.Instruction.I64RemS  -- 587
      else if x1 = 0x82 then
        pure Source.Instruction.I64RemU  -- 588
      else if x1 = 0x83 then
        pure Source.Instruction.I64And  -- 589
      else if x1 = 0x84 then
        pure Source.Instruction.I64Or  -- 590
      else if x1 = 0x85 then
        pure Source.Instruction.I64Xor  -- 591
      else if x1 = 0x86 then
        pure Source.Instruction.I64Shl  -- 592
      else if x1 = 0x87 then
        pure Source.Instruction.I64ShrS  -- 593
      else if x1 = 0x88 then
        pure Source.Instruction.I64ShrU  -- 594
      else if x1 = 0x89 then
        pure Source.Instruction.I64Rotl  -- 595
      else if x1 = 0x8A then
        pure Source.Instruction.I64Rotr  -- 596
      else if x1 = 0x8B then
        pure Source.Instruction.F32Abs  -- 597
      else if x1 = 0x8C then
        pure Source.Instruction.F32Neg  -- 598
      else if x1 = 0x8D then
        pure Source.Instruction.F32Ceil  -- 599
      else if x1 = 0x8E then
        pure Source.Instruction.F32Floor  -- 600
      else if x1 = 0x8F then
        pure Source.Instruction.F32Trunc  -- 601
      else if x1 = 0x90 then
        pure Source.Instruction.F32Nearest  -- 602
      else if x1 = 0x91 then
        pure Source.Instruction.F32Sqrt  -- 603
      else if x1 = 0x92 then
        pure Source.Instruction.F32Add  -- 604
      else if x1 = 0x93 then
        pure Source.Instruction.F32Sub  -- 605
      else if x1 = 0x94 then
        pure Source.Instruction.F32Mul  -- 606
      else if x1 = 0x95 then
        pure Source.Instruction.F32Div  -- 607
      else if x1 = 0x96 then
        pure Source.Instruction.F32Min  -- 608
      else if x1 = 0x97 then
        pure Source.Instruction.F32Max  -- 609
      else if x1 = 0x98 then
        pure Source.Instruction.F32Copysign  -- 610
      else if x1 = 0x99 then
        pure Source.Instruction.F64Abs  -- 611
      else if x1 = 0x9A then
        pure Source.Instruction.F64Neg  -- 612
      else if x1 = 0x9B then
        pure Source.Instruction.F64Ceil  -- 613
      else if x1 = 0x9C then
        pure Source.Instruction.F64Floor  -- 614
      else if x1 = 0x9D then
        pure Source.Instruction.F64Trunc  -- 615
      else if x1 = 0x9E then
        pure Source.Instruction.F64Nearest  -- 616
      else if x1 = 0x9F then
        pure Source.Instruction.F64Sqrt  -- 617
      else if x1 = 0xA0 then
        pure Source.Instruction.F64Add  -- 618
      else if x1 = 0xA1 then
        pure Source.Instruction.F64Sub  -- 619
      else if x1 = 0xA2 then
        pure Source.Instruction.F64Mul  -- 620
      else if x1 = 0xA3 then
        pure Source.Instruction.F64Div  -- 621
      else if x1 = 0xA4 then
        pure Source.Instruction.F64Min  -- 622
      else if x1 = 0xA5 then
        pure Source.Instruction.F64Max  -- 623
      else if x1 = 0xA6 then
        pure Source.Instruction.F64Copysign  -- 624
      else if x1 = 0xA7 then
        pure Source.Instruction.I32WrapI64  -- 625
      else if x1 = 0xA8 then
        pure Source.Instruction.I32TruncF32S  -- 626
      else if x1 = 0xA9 then
        pure Source.Instruction.I32TruncF32U  -- 627
      else if x1 = 0xAA then
        pure Source.Instruction.I32TruncF64S  -- 628
      else if x1 = 0xAB then
        pure Source.Instruction.I32TruncF64U  -- 629
      else if x1 = 0xAC then
        pure Source.Instruction.I64ExtendI32S  -- 630
      else if x1 = 0xAD then
        pure Source.Instruction.I64ExtendI32U  -- 631
      else if x1 = 0xAE then
        pure Source.Instruction.I64TruncF32S  -- 632
      else if x1 = 0xAF then
        pure Source.Instruction.I64TruncF32U  -- 633
      else if x1 = 0xB0 then
        pure Source.Instruction.I64TruncF64S  -- 634
      else if x1 = 0xB1 then
        pure Source.Instruction.I64TruncF64U  -- 635
      else if x1 = 0xB2 then
        pure Source.Instruction.F32ConvertI32S  -- 636
      else if x1 = 0xB3 then
        pure Source.Instruction.F32ConvertI32U  -- 637
      else if x1 = 0xB4 then
        pure Source.Instruction.F32ConvertI64S  -- 638
      else if x1 = 0xB5 then
        pure Source.Instruction.F32ConvertI64U  -- 639
      else if x1 = 0xB6 then
        pure Source.Instruction.F32DemoteF64  -- 640
      else if x1 = 0xB7 then
        pure Source.Instruction.F64ConvertI32S  -- 641
      else if x1 = 0xB8 then
        pure Source.Instruction.F64ConvertI32U  -- 642
      else if x1 = 0xB9 then
        pure Source.Instruction.F64ConvertI64S  -- 643
      else if x1 = 0xBA then
        pure Source.Instruction.F64ConvertI64U  -- 644
      else if x1 = 0xBB then
        pure Source.Instruction.F64PromoteF32  -- 645
      else if x1 = 0xBC then
        pure Source.Instruction.I32ReinterpretF32  -- 646
      else if x1 = 0xBD then
        pure Source.Instruction.I64ReinterpretF64  -- 647
      else if x1 = 0xBE then
        pure Source.Instruction.F32ReinterpretI32  -- 648
      else if x1 = 0xBF then
        pure Source.Instruction.F64ReinterpretI64  -- 649
      else if x1 = 0xC0 then
        pure Source.Instruction.I32Extend8S  -- 650
      else if x1 = 0xC1 then
        pure Source.Instruction.I32Extend16S  -- 651
      else if x1 = 0xC2 then
        pure Source.Instruction.I64Extend8S  -- 652
      else if x1 = 0xC3 then
        pure Source.Instruction.I64Extend16S  -- 653
      else if x1 = 0xC4 then
        pure Source.Instruction.I64Extend32S  -- 654
      else if x1 = 0xFC then
        do  -- 657
          let x2 ← q (Dec.mapErr NumericError.ReadOpcode Source.decode_u32)
          if x2 = 0 then
            pure Source.Instruction.I32TruncSatF32S  -- 659
          else if x2 = 1 then
            pure Source.Instruction.I32TruncSatF32U  -- 660
          else if x2 = 2 then
            pure Source.Instruction.I32TruncSatF64S  -- 661
          else if x2 = 3 then
            pure Source.Instruction.I32TruncSatF64U  -- 662
          else if x2 = 4 then
            pure Source.Instruction.I64TruncSatF32S  -- 663
          else if x2 = 5 then
            pure Source.Instruction.I64TruncSatF32U  -- 664
          else if x2 = 6 then
            pure Source.Instruction.I64TruncSatF64S  -- 665
          else if x2 = 7 then
            pure Source.Instruction.I64TruncSatF64U  -- 666
          else if x2 = 8 then
            let y ← q (Dec.mapErr MemoryError.DecodeDataIdx Source.DataIdx.decode)  -- 670
            let x ← q (Dec.mapErr MemoryError.DecodeMemIdx Source.MemIdx.decode)  -- 671
            pure (Source.Instruction.MemoryInit x y)  -- 672
          else if x2 = 9 then
            pure (Source.Instruction.DataDrop (← q (Dec.mapErr MemoryError.DecodeDataIdx Source.DataIdx.decode)))
          else if x2 = 10 then
            let x1 ← q (Dec.mapErr MemoryError.DecodeMemIdx Source.MemIdx.decode)  -- 678
            let x2 ← q (Dec.mapErr MemoryError.DecodeMemIdx Source.MemIdx.decode)  -- 679
            pure (Source.Instruction.MemoryCopy x1 x2)  -- 680
          else if x2 = 11 then
            let x ← q (Dec.mapErr MemoryError.DecodeMemIdx Source.MemIdx.decode)  -- 683
            pure (Source.Instruction.MemoryFill x)  -- 684
          else if x2 = 12 then
            let y ← q (Dec.mapErr TableError.ElemIdx Source.ElemIdx.decode)  -- 689
            let x ← q (Dec.mapErr TableError.TableIdx Source.TableIdx.decode)  -- 690
            pure (Source.Instruction.TableInit x y)  -- 691
          else if x2 = 13 then
            pure (Source.Instruction.ElemDrop (← q (Dec.mapErr TableError.ElemIdx Source.ElemIdx.decode)))
          else if x2 = 14 then
            pure (Source.Instruction.TableCopy (← q (Dec.mapErr TableError.TableIdx Source.TableIdx.decode)) (← q (Dec.mapErr TableError.TableIdx Source.TableIdx.decode)))
          else if x2 = 15 then
            pure (Source.Instruction.TableGrow (← q (Dec.mapErr TableError.TableIdx Source.TableIdx.decode)))
          else if x2 = 16 then
            pure (Source.Instruction.TableSize (← q (Dec.mapErr TableError.TableIdx Source.TableIdx.decode)))
          else if x2 = 17 then
            pure (Source.Instruction.TableFill (← q (Dec.mapErr TableError.TableIdx Source.TableIdx.decode)))
          else
            let n := x2
            Dec.err (ParseError.InvalidMarkerByteAfterFC n)  -- 709
      else if x1 = 0xFD then
        do  -- 713
          let x3 ← q (Dec.mapErr VectorError.ReadOpcode Source.decode_u32)
          if (0 ≤ x3 ∧ x3 ≤ 11) ∨ x3 = 92 ∨ x3 = 93 then
            let op := x3
            let m ← q (Dec.mapErr VectorError.Memarg Source.Memarg.decode)  -- 715
            if op = 0 then  -- 716
              pure (Source.Instruction.V128Load m)  -- 717
            else if op = 1 then
              pure (Source.Instruction.V128Load8x8S m)  -- 718
            else if op = 2 then
              pure (Source.Instruction.V128Load8x8U m)  -- 719
            else if op = 3 then
              pure (Source.Instruction.V128Load16x4S m)  -- 720
            else if op = 4 then
              pure (Source.Instruction.V128Load16x4U m)  -- 721
            else if op = 5 then
              pure (Source.Instruction.V128Load32x2S m)  -- 722
            else if op = 6 then
              pure (Source.Instruction.V128Load32x2U m)  -- 723
            else if op = 7 then
              pure (Source.Instruction.V128Load8Splat m)  -- 724
            else if op = 8 then
              pure (Source.Instruction.V128Load16Splat m)  -- 725
            else if op = 9 then
              pure (Source.Instruction.V128Load32Splat m)  -- 726
            else if op = 10 then
              pure (Source.Instruction.V128Load64Splat m)  -- 727
            else if op = 92 then
              pure (Source.Instruction.V128Load32Zero m)  -- 728
            else if op = 93 then
              pure (Source.Instruction.V128Load64Zero m)  -- 729
            else if op = 11 then
              pure (Source.Instruction.V128Store m)  -- 730
            else
              Dec.panic  -- 731
          else if 84 ≤ x3 ∧ x3 ≤ 91 then
            let op := x3
            let m ← q (Dec.mapErr VectorError.Memarg Source.Memarg.decode)  -- 735
            let l ← q (Dec.mapErr VectorError.LaneIdx Source.LaneIdx.decode)  -- 736
            if op = 84 then  -- 737
              pure (Source.Instruction.V128Load8Lane m l)  -- 738
            else if op = 85 then
              pure (Source.Instruction.V128Load16Lane m l)  -- 739
            else if op = 86 then
              pure (Source.Instruction.V128Load32Lane m l)  -- 740
            else if op = 87 then
              pure (Source.Instruction.V128Load64Lane m l)  -- 741
            else if op = 88 then
              pure (Source.Instruction.V128Store8Lane m l)  -- 742
            else if op = 89 then
              pure (Source.Instruction.V128Store16Lane m l)  -- 743
            else if op = 90 then
              pure (Source.Instruction.V128Store32Lane m l)  -- 744
            else if op = 91 then
              pure (Source.Instruction.V128Store64Lane m l)  -- 745
            else
              Dec.panic  -- 746
          else if x3 = 12 then
            let mut buf := List.replicate 16 (0 : UInt8)  -- 750
            buf ← q (Dec.mapErr VectorError.ReadImmediateBytes (readExact buf.length))  -- 751
            pure (Source.Instruction.V128Const (← pack16 buf))  -- 754
          else if x3 = 13 then
            let mut immediates := List.replicate 16 (0 : UInt8)  -- 757
            immediates ← q (Dec.mapErr VectorError.ReadImmediateBytes (readExact immediates.length))  -- 758
            pure (Source.Instruction.I8x16Shuffle (← pack16 (List.map Source.LaneIdx.new immediates)))
          else if 21 ≤ x3 ∧ x3 ≤ 34 then
            let op := x3
            let l ← q (Dec.mapErr VectorError.LaneIdx Source.LaneIdx.decode)  -- 764
            if op = 21 then  -- 765
              pure (Source.Instruction.I8x16ExtractLaneS l)  -- 766
            else if op = 22 then
              pure (Source.Instruction.I8x16ExtractLaneU l)  -- 767
            else if op = 23 then
              pure (Source.Instruction.I8x16ReplaceLane l)  -- 768
            else if op = 24 then
              pure (Source.Instruction.I16x8ExtractLaneS l)  -- 769
            else if op = 25 then
              pure (Source.Instruction.I16x8ExtractLaneU l)  -- 770
            else if op = 26 then
              pure (Source.Instruction.I16x8ReplaceLane l)  -- 771
            else if op = 27 then
              pure (Source.Instruction.I32x4ExtractLane l)  -- 772
            else if op = 28 then
              pure (Source.Instruction.I32x4ReplaceLane l)  -- 773
            else if op = 29 then
              pure (Source.Instruction.I64x2ExtractLane l)  -- 774
            else if op = 30 then
              pure (Source.Instruction.I64x2ReplaceLane l)  -- 775
            else if op = 31 then
              pure (Source.Instruction.F32x4ExtractLane l)  -- 776
            else if op = 32 then
              pure (Source.Instruction.F32x4ReplaceLane l)  -- 777
            else if op = 33 then
              pure (Source.Instruction.F64x2ExtractLane l)  -- 778
            else if op = 34 then
              pure (Source.Instruction.F64x2ReplaceLane l)  -- 779
            else
              Dec.panic  -- 780
          else if x3 = 14 then
            pure Source.Instruction.I8x16Swizzle  -- 783
          else if x3 = 256 then
            pure Source.Instruction.I8x16RelaxedSwizzle  -- 784
          else if x3 = 15 then
            pure Source.Instruction.I8x16Splat  -- 785
          else if x3 = 16 then
            pure Source.Instruction.I16x8Splat  -- 786
          else if x3 = 17 then
            pure Source.Instruction.I32x4Splat  -- 787
          else if x3 = 18 then
            pure Source.Instruction.I64x2Splat  -- 788
          else if x3 = 19 then
            pure Source.Instruction.F32x4Splat  -- 789
          else if x3 = 20 then
            pure Source.Instruction.F64x2Splat  -- 790
          else if x3 = 35 then
            pure Source.Instruction.I8x16Eq  -- 791
          else if x3 = 36 then
            pure Source.Instruction.I8x16Ne  -- 792
          else if x3 = 37 then
            pure Source.Instruction.I8x16LtS  -- 793
          else if x3 = 38 then
            pure Source.Instruction.I8x16LtU  -- 794
          else if x3 = 39 then
            pure Source.Instruction.I8x16GtS  -- 795
          else if x3 = 40 then
            pure Source.Instruction.I8x16GtU  -- 796
          else if x3 = 41 then
            pure Source.Instruction.I8x16LeS  -- 797
          else if x3 = 42 then
            pure Source.Instruction.I8x16LeU  -- 798
          else if x3 = 43 then
            pure Source.Instruction.I8x16GeS  -- 799
          else if x3 = 44 then
            pure Source.Instruction.I8x16GeU  -- 800
          else if x3 = 45 then
            pure Source.Instruction.I16x8Eq  -- 801
          else if x3 = 46 then
            pure Source.Instruction.I16x8Ne  -- 802
          else if x3 = 47 then
            pure Source.Instruction.I16x8LtS  -- 803
          else if x3 = 48 then
            pure Source.Instruction.I16x8LtU  -- 804
          else if x3 = 49 then
            pure Source.Instruction.I16x8GtS  -- 805
          else if x3 = 50 then
            pure Source.Instruction.I16x8GtU  -- 806
          else if x3 = 51 then
            pure Source.Instruction.I16x8LeS  -- 807
          else if x3 = 52 then
            pure Source.Instruction.I16x8LeU  -- 808
          else if x3 = 53 then
            pure Source.Instruction.I16x8GeS  -- 809
          else if x3 = 54 then
            pure Source.Instruction.I16x8GeU  -- 810
          else if x3 = 55 then
            pure Source.Instruction.I32x4Eq  -- 811
          else if x3 = 56 then
            pure Source.Instruction.I32x4Ne  -- 812
          else if x3 = 57 then
            pure Source.Instruction.I32x4LtS  -- 813
          else if x3 = 58 then
            pure Source.Instruction.I32x4LtU  -- 814
          else if x3 = 59 then
            pure Source.Instruction.I32x4GtS  -- 815
          else if x3 = 60 then
            pure Source.Instruction.I32x4GtU  -- 816
          else if x3 = 61 then
            pure Source.Instruction.I32x4LeS  -- 817
          else if x3 = 62 then
            pure Source.Instruction.I32x4LeU  -- 818
          else if x3 = 63 then
            pure Source.Instruction.I32x4GeS  -- 819
          else if x3 = 64 then
            pure Source.Instruction.I32x4GeU  -- 820
          else if x3 = 65 then
            pure Source.Instruction.F32x4Eq  -- 821
          else if x3 = 66 then
            pure Source.Instruction.F32x4Ne  -- 822
          else if x3 = 67 then
            pure Source.Instruction.F32x4Lt  -- 823
          else if x3 = 68 then
            pure Source.Instruction.F32x4Gt  -- 824
          else if x3 = 69 then
            pure Source.Instruction.F32x4Le  -- 825
          else if x3 = 70 then
            pure Source.Instruction.F32x4Ge  -- 826
          else if x3 = 71 then
            pure Source.Instruction.F64x2Eq  -- 827
          else if x3 = 72 then
            pure Source.Instruction.F64x2Ne  -- 828
          else if x3 = 73 then
            pure Source.Instruction.F64x2Lt  -- 829
          else if x3 = 74 then
            pure Source.Instruction.F64x2Gt  -- 830
          else if x3 = 75 then
            pure Source.Instruction.F64x2Le  -- 831
          else if x3 = 76 then
            pure Source.Instruction.F64x2Ge  -- 832
          else if x3 = 77 then
            pure Source.Instruction.V128Not  -- 833
          else if x3 = 78 then
            pure Source.Instruction.V128And  -- 834
          else if x3 = 79 then
            pure Source.Instruction.V128AndNot  -- 835
          else if x3 = 80 then
            pure Source.Instruction.V128Or  -- 836
          else if x3 = 81 then
            pure Source.Instruction.V128Xor  -- 837
          else if x3 = 82 then
            pure Source.Instruction.V128Bitselect  -- 838
          else if x3 = 265 then
            pure Source.Instruction.I8x16RelaxedLaneSelect  -- 839
          else if x3 = 266 then
            pure Source.Instruction.I16x8RelaxedLaneSelect  -- 840
          else if x3 = 267 then
            pure Source.Instruction.I32x4RelaxedLaneSelect  -- 841
          else if x3 = 268 then
            pure Source.Instruction.I64x2RelaxedLaneSelect  -- 842
          else if x3 = 83 then
            pure Source.Instruction.V128AnyTrue  -- 843
          else if x3 = 96 then
            pure Source.Instruction.I8x16Abs  -- 844
          else if x3 = 97 then
            pure Source.Instruction.I8x16Neg  -- 845
          else if x3 = 98 then
            pure Source.Instruction.I8x16Popcnt  -- 846
          else if x3 = 99 then
            pure Source.Instruction.I8x16AllTrue  -- 847
          else if x3 = 100 then
            pure Source.Instruction.I8x16Bitmask  -- 848
          else if x3 = 101 then
            pure Source.Instruction.I8x16NarrowI16x8S  -- 849
          else if x3 = 102 then
            pure Source.Instruction.I8x16NarrowI16x8U  -- 850
          else if x3 = 107 then
            pure Source.Instruction.I8x16Shl  -- 852
          else if x3 = 108 then
            pure Source.Instruction.I8x16ShrS  -- 853
          else if x3 = 109 then
            pure Source.Instruction.I8x16ShrU  -- 854
          else if x3 = 110 then
            pure Source.Instruction.I8x16Add  -- 855
          else if x3 = 111 then
            pure Source.Instruction.I8x16AddSatS  -- 856
          else if x3 = 112 then
            pure Source.Instruction.I8x16AddSatU  -- 857
          else if x3 = 113 then
            pure Source.Instruction.I8x16Sub  -- 858
          else if x3 = 114 then
            pure Source.Instruction.I8x16SubSatS  -- 859
          else if x3 = 115 then
            pure Source.Instruction.I8x16SubSatU  -- 860
          else if x3 = 118 then
            pure Source.Instruction.I8x16MinS  -- 861
          else if x3 = 119 then
            pure Source.Instruction.I8x16MinU  -- 862
          else if x3 = 120 then
            pure Source.Instruction.I8x16MaxS  -- 863
          else if x3 = 121 then
            pure Source.Instruction.I8x16MaxU  -- 864
          else if x3 = 123 then
            pure Source.Instruction.I8x16AvgrU  -- 865
          else if x3 = 124 then
            pure Source.Instruction.I16x8ExtaddPairwiseI8x16S  -- 866
          else if x3 = 125 then
            pure Source.Instruction.I16x8ExtaddPairwiseI8x16U  -- 867
          else if x3 = 126 then
            pure Source.Instruction.I32x4ExtaddPairwiseI16x8S  -- 869
          else if x3 = 127 then
            pure Source.Instruction.I32x4ExtaddPairwiseI16x8U  -- 870
          else if x3 = 128 then
            pure Source.Instruction.I16x8Abs  -- 871
          else if x3 = 129 then
            pure Source.Instruction.I16x8Neg  -- 872
          else if x3 = 130 then
            pure Source.Instruction.I16x8Q15MulrSatS  -- 873
          else if x3 = 131 then
            pure Source.Instruction.I16x8AllTrue  -- 874
          else if x3 = 132 then
            pure Source.Instruction.I16x8Bitmask  -- 875
          else if x3 = 133 then
            pure Source.Instruction.I16x8NarrowI32x4S  -- 876
          else if x3 = 134 then
            pure Source.Instruction.I16x8NarrowI32x4U  -- 877
          else if x3 = 135 then
            pure Source.Instruction.I16x8ExtendLowI8x16S  -- 878
          else if x3 = 136 then
            pure Source.Instruction.I16x8ExtendHighI8x16S  -- 879
          else if x3 = 137 then
            pure Source.Instruction.I16x8ExtendLowI8x16U  -- 880
          else if x3 = 138 then
            pure Source.Instruction.I16x8ExtendHighI8x16U  -- 881
          else if x3 = 139 then
            pure Source.Instruction.I16x8Shl  -- 882
          else if x3 = 140 then
            pure Source.Instruction.I16x8ShrS  -- 883
          else if x3 = 141 then
            pure Source.Instruction.I16x8ShrU  -- 884
          else if x3 = 142 then
            pure Source.Instruction.I16x8Add  -- 885
          else if x3 = 143 then
            pure Source.Instruction.I16x8AddSatS  -- 886
          else if x3 = 144 then
            pure Source.Instruction.I16x8AddSatU  -- 887
          else if x3 = 145 then
            pure Source.Instruction.I16x8Sub  -- 888
          else if x3 = 146 then
            pure Source.Instruction.I16x8SubSatS  -- 889
          else if x3 = 147 then
            pure Source.Instruction.I16x8SubSatU  -- 890
          else if x3 = 149 then
            pure Source.Instruction.I16x8Mul  -- 891
          else if x3 = 150 then
            pure Source.Instruction.I16x8MinS  -- 892
          else if x3 = 151 then
            pure Source.Instruction.I16x8MinU  -- 893
          else if x3 = 152 then
            pure Source.Instruction.I16x8MaxS  -- 894
          else if x3 = 153 then
            pure Source.Instruction.I16x8MaxU  -- 895
          else if x3 = 155 then
            pure Source.Instruction.I16x8AvgrU  -- 896
          else if x3 = 273 then
            pure Source.Instruction.I16x8RelaxedQ15MulrS  -- 897
          else if x3 = 156 then
            pure Source.Instruction.I16x8ExtmulLowI8x16S  -- 898
          else if x3 = 157 then
            pure Source.Instruction.I16x8ExtmulHighI8x16S  -- 899
          else if x3 = 158 then
            pure Source.Instruction.I16x8ExtmulLowI8x16U  -- 900
          else if x3 = 159 then
            pure Source.Instruction.I16x8ExtmulHighI8x16U  -- 901
          else if x3 = 274 then
            pure Source.Instruction.I16x8RelaxedDotSI8x16  -- 902
          else if x3 = 275 then
            pure Source.Instruction.I32x4RelaxedDotAddSI16x8  -- 903
          else if x3 = 160 then
            pure Source.Instruction.I32x4Abs  -- 904
          else if x3 = 161 then
            pure Source.Instruction.I32x4Neg  -- 905
          else if x3 = 163 then
            pure Source.Instruction.I32x4AllTrue  -- 906
          else if x3 = 164 then
            pure Source.Instruction.I32x4Bitmask  -- 907
          else if x3 = 167 then
            pure Source.Instruction.I32x4ExtendLowI16x8S  -- 908
          else if x3 = 168 then
            pure Source.Instruction.I32x4ExtendHighI16x8S  -- 909
          else if x3 = 169 then
            pure Source.Instruction.I32x4ExtendLowI16x8U  -- 910
          else if x3 = 170 then
            pure Source.Instruction.I32x4ExtendHighI16x8U  -- 911
          else if x3 = 171 then
            pure Source.Instruction.I32x4Shl  -- 912
          else if x3 = 172 then
            pure Source.Instruction.I32x4ShrS  -- 913
          else if x3 = 173 then
            pure Source.Instruction.I32x4ShrU  -- 914
          else if x3 = 174 then
            pure Source.Instruction.I32x4Add  -- 915
          else if x3 = 177 then
            pure Source.Instruction.I32x4Sub  -- 916
          else if x3 = 181 then
            pure Source.Instruction.I32x4Mul  -- 917
          else if x3 = 182 then
            pure Source.Instruction.I32x4MinS  -- 918
          else if x3 = 183 then
            pure Source.Instruction.I32x4MinU  -- 919
          else if x3 = 184 then
            pure Source.Instruction.I32x4MaxS  -- 920
          else if x3 = 185 then
            pure Source.Instruction.I32x4MaxU  -- 921
          else if x3 = 186 then
            pure Source.Instruction.I32x4DotI16x8S  -- 922
          else if x3 = 188 then
            pure Source.Instruction.I32x4ExtmulLowI16x8S  -- 923
          else if x3 = 189 then
            pure Source.Instruction.I32x4ExtmulHighI16x8S  -- 924
          else if x3 = 190 then
            pure Source.Instruction.I32x4ExtmulLowI16x8U  -- 925
          else if x3 = 191 then
            pure Source.Instruction.I32x4ExtmulHighI16x8U  -- 926
          else if x3 = 192 then
            pure Source.Instruction.I64x2Abs  -- 927
          else if x3 = 193 then
            pure Source.Instruction.I64x2Neg  -- 928
          else if x3 = 195 then
            pure Source.Instruction.I64x2AllTrue  -- 929
          else if x3 = 196 then
            pure Source.Instruction.I64x2Bitmask  -- 930
          else if x3 = 199 then
            pure Source.Instruction.I64x2ExtendLowI32x4S  -- 931
          else if x3 = 200 then
            pure Source.Instruction.I64x2ExtendHighI32x4S  -- 932
          else if x3 = 201 then
            pure Source.Instruction.I64x2ExtendLowI32x4U  -- 933
          else if x3 = 202 then
            pure Source.Instruction.I64x2ExtendHighI32x4U  -- 934
          else if x3 = 203 then
            pure Source.Instruction.I64x2Shl  -- 935
          else if x3 = 204 then
            pure Source.Instruction.I64x2ShrS  -- 936
          else if x3 = 205 then
            pure Source.Instruction.I64x2ShrU  -- 937
          else if x3 = 206 then
            pure Source.Instruction.I64x2Add  -- 938
          else if x3 = 209 then
            pure Source.Instruction.I64x2Sub  -- 939
          else if x3 = 213 then
            pure Source.Instruction.I64x2Mul  -- 940
          else if x3 = 214 then
            pure Source.Instruction.I64x2Eq  -- 941
          else if x3 = 215 then
            pure Source.Instruction.I64x2Ne  -- 942
          else if x3 = 216 then
            pure Source.Instruction.I64x2LtS  -- 943
          else if x3 = 217 then
            pure Source.Instruction.I64x2GtS  -- 944
          else if x3 = 218 then
            pure Source.Instruction.I64x2LeS  -- 945
          else if x3 = 219 then
            pure Source.Instruction.I64x2GeS  -- 946
          else if x3 = 220 then
            pure Source.Instruction.I64x2ExtmulLowI32x4S  -- 947
          else if x3 = 221 then
            pure Source.Instruction.I64x2ExtmulHighI32x4S  -- 948
          else if x3 = 222 then
            pure Source.Instruction.I64x2ExtmulLowI32x4U  -- 949
          else if x3 = 223 then
            pure Source.Instruction.I64x2ExtmulHighI32x4U  -- 950
          else if x3 = 103 then
            pure Source.Instruction.F32x4Ceil  -- 952
          else if x3 = 104 then
            pure Source.Instruction.F32x4Floor  -- 953
          else if x3 = 105 then
            pure Source.Instruction.F32x4Trunc  -- 954
          else if x3 = 106 then
            pure Source.Instruction.F32x4Nearest  -- 955
          else if x3 = 224 then
            pure Source.Instruction.F32x4Abs  -- 956
          else if x3 = 225 then
            pure Source.Instruction.F32x4Neg  -- 957
          else if x3 = 227 then
            pure Source.Instruction.F32x4Sqrt  -- 958
          else if x3 = 228 then
            pure Source.Instruction.F32x4Add  -- 959
          else if x3 = 229 then
            pure Source.Instruction.F32x4Sub  -- 960
          else if x3 = 230 then
            pure Source.Instruction.F32x4Mul  -- 961
          else if x3 = 231 then
            pure Source.Instruction.F32x4Div  -- 962
          else if x3 = 232 then
            pure Source.Instruction.F32x4Min  -- 963
          else if x3 = 233 then
            pure Source.Instruction.F32x4Max  -- 964
          else if x3 = 234 then
            pure Source.Instruction.F32x4PMin  -- 965
          else if x3 = 235 then
            pure Source.Instruction.F32x4PMax  -- 966
          else if x3 = 269 then
            pure Source.Instruction.F32x4RelaxedMin  -- 967
          else if x3 = 270 then
            pure Source.Instruction.F32x4RelaxedMax  -- 968
          else if x3 = 271 then
            pure Source.Instruction.F64x2RelaxedMin  -- 969
          else if x3 = 272 then
            pure Source.Instruction.F64x2RelaxedMax  -- 970
          else if x3 = 261 then
            pure Source.Instruction.F32x4RelaxedMAdd  -- 971
          else if x3 = 262 then
            pure Source.Instruction.F32x4RelaxedNMAdd  -- 972
          else if x3 = 263 then
            pure Source.Instruction.F64x2RelaxedMAdd  -- 973
          else if x3 = 264 then
            pure Source.Instruction.F64x2RelaxedNMAdd  -- 974
          else if x3 = 116 then
            pure Source.Instruction.F64x2Ceil  -- 976
          else if x3 = 117 then
            pure Source.Instruction.F64x2Floor  -- 977
          else if x3 = 122 then
            pure Source.Instruction.F64x2Trunc  -- 978
          else if x3 = 148 then
            pure Source.Instruction.F64x2Nearest  -- 979
          else if x3 = 236 then
            pure Source.Instruction.F64x2Abs  -- 980
          else if x3 = 237 then
            pure Source.Instruction.F64x2Neg  -- 981
          else if x3 = 239 then
            pure Source.Instruction.F64x2Sqrt  -- 982
          else if x3 = 240 then
            pure Source.Instruction.F64x2Add  -- 983
          else if x3 = 241 then
            pure Source.Instruction.F64x2Sub  -- 984
          else if x3 = 242 then
            pure Source.Instruction.F64x2Mul  -- 985
          else if x3 = 243 then
            pure Source.Instruction.F64x2Div  -- 986
          else if x3 = 244 then
            pure Source.Instruction.F64x2Min  -- 987
          else if x3 = 245 then
            pure Source.Instruction.F64x2Max  -- 988
          else if x3 = 246 then
            pure Source.Instruction.F64x2PMin  -- 989
          else if x3 = 247 then
            pure Source.Instruction.F64x2PMax  -- 990
          else if x3 = 248 then
            pure Source.Instruction.I32x4TruncSatF32x4S  -- 991
          else if x3 = 249 then
            pure Source.Instruction.I32x4TruncSatF32x4U  -- 992
          else if x3 = 250 then
            pure Source.Instruction.F32x4ConvertI32x4S  -- 993
          else if x3 = 251 then
            pure Source.Instruction.F32x4ConvertI32x4U  -- 994
          else if x3 = 252 then
            pure Source.Instruction.I32x4TruncSatF64x2SZero  -- 995
          else if x3 = 253 then
            pure Source.Instruction.I32x4TruncSatF64x2UZero  -- 996
          else if x3 = 254 then
            pure Source.Instruction.F64x2ConvertLowI32x4S  -- 997
          else if x3 = 255 then
            pure Source.Instruction.F64x2ConvertLowI32x4U  -- 998
          else if x3 = 257 then
            pure Source.Instruction.I32x4RelaxedTruncF32x4S  -- 999
          else if x3 = 258 then
            pure Source.Instruction.I32x4RelaxedTruncF32x4U  -- 1000
          else if x3 = 259 then
            pure Source.Instruction.I32x4RelaxedTruncF64x2SZero  -- 1001
          else if x3 = 260 then
            pure Source.Instruction.I32x4RelaxedTruncF64x2UZero  -- 1002
          else if x3 = 94 then
            pure Source.Instruction.F32x4DemoteF64x2Zero  -- 1003
          else if x3 = 95 then
            pure Source.Instruction.F64x2PromoteLowF32x4  -- 1004
          else
            let n := x3
            Dec.err (From.from_ (VectorError.InvalidOpcode n))  -- 1006
      else
        let n := x1
        Dec.err (ParseError.InvalidOpcode n)  -- 1008
  return ParseResult.Instruction ins  -- 1011

/-- src/decode/instructions.rs:203-1012 -/
def Instruction.parse : Nat → Dec R ParseError ParseResult
  | 0 => Dec.outOfFuel
  | fuel + 1 => Instruction.parse_body (Instruction.parse fuel) fuel

end Wadec.Source
