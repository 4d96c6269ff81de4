#!/usr/bin/env python3
"""Generates lean/Verif/Spec/MarkOf.lean: for each error type of Model/Errors.lean, the complaint about
an unknown marker that a value of it contains (following all payloads)."""
import re, os
root = os.path.join(os.path.dirname(__file__), '..', 'lean', 'Verif')
src = open(os.path.join(root, 'Model', 'Errors.lean')).read()
SPECIAL = {
 ('CatchError','InvalidMarkerByte'): 'some (.catch x)',
 ('BlockTypeError','NegativeTypeIndex'): 'if x = -29 ∨ x = -28 then some (.blockRef x) else some (.blockType x)',
 ('DecodeHeapTypeError','NegativeTypeIndex'): 'some (.heapType x)',
 ('ControlError','InvalidCastNullabilityMarker'): 'some (.cast x)',
 ('InvalidAbsHeapTypeMarkerError','mk'): 'some (.absHeapType x)',
 ('DecodeRefTypeError','InvalidMarkerByte'): 'match MarkOf.mark e with | some (.absHeapType b) => some (.refType b) | m => m',
 ('DecodeValTypeError','DecodeRefType'): '(MarkOf.mark e).map Mark.asValType',
 ('DecodeStorageTypeError','DecodeValTypeOrPackType'): '(MarkOf.mark source).map Mark.asStorageType',
 ('MemargError','InvalidFlagsBit'): 'some (.memarg x)',
 ('VectorError','InvalidOpcode'): 'some (.opcode (.fd x.toNat))',
 ('ParseError','InvalidOpcode'): 'some (.opcode (.byte x))',
 ('ParseError','InvalidMarkerByteAfterFC'): 'some (.opcode (.fc x.toNat))',
 ('ParseError','InvalidMarkerByteAfterFB'): 'some (.opcode (.fb x.toNat))',
 ('InvalidMutabilityByteError','mk'): 'some (.mut x)',
 ('DecodeCompTypeError','InvalidMarkerByte'): 'some (.compType x)',
 ('ParseLimitsError','UnexpectedFlagByte'): 'some (.limits x)',
 ('DecodeTagTypeError','InvalidMarkerByte'): 'some (.tagType x)',
 ('DecodeExternTypeError','InvalidMarkerByte'): 'some (.externType x)',
 ('DecodeDataSegmentError','InvalidBitfield'): 'some (.data x)',
 ('DecodeElementKindError','InvalidElemKind'): 'some (.elemKind x)',
 ('DecodeElementError','InvalidBitfield'): 'some (.elem x)',
 ('InvalidExportDescMarkerByte','mk'): 'some (.externIdx x)',
 ('DecodeTableError','UnexpectedMarkerByte'): 'some (.table x)',
 ('InvalidSectionIdError','mk'): 'some (.sectionId x)',
 ('ParsePreambleError','Unexpected'): 'some (.preamble x)',
 ('InvalidPackTypeMarkerError','mk'): 'none',
}
used=set()
out = '''import Verif.Model.Errors
import Verif.Spec.Mark

/-! Generated by tools/gen_marks.py: the complaint (Spec/Mark.lean) that an error value contains, if it
contains one, following all payloads.  (`InvalidPackTypeMarkerError` is never returned: it is the
error of a lookup whose failure selects the alternative, src/decode/types/comptype.rs:109-118.) -/

namespace Wadec

open Spec

class MarkOf (ε : Type) where
  mark : ε → Option Mark

instance : MarkOf IoError := ⟨fun _ => none⟩
instance : MarkOf FromUtf8Error := ⟨fun _ => none⟩
'''
blocks = re.findall(r'inductive (\w+)( \(E : Type\))? where\n((?:  \|.*\n)+)', src)
names = [b[0] for b in blocks]
for name, gen, body in blocks:
    ty = name
    head = f'instance : MarkOf {name} where'
    if gen:
        head = f'instance {{E : Type}} [MarkOf E] : MarkOf ({name} E) where'
    out += '\n' + head + '\n  mark\n'
    for l in body.strip('\n').split('\n'):
        m = re.match(r'  \| (\w+)(.*)$', l)
        v, args = m.group(1), m.group(2).strip()
        pars = re.findall(r'\((\w+) : ((?:[^()]|\([^()]*\))*)\)', args)
        key = (name, v)
        if key in SPECIAL:
            used.add(key)
            rhs = SPECIAL[key]
            keep = set(re.findall(r'\w+', rhs))
            pat = ' '.join(p if p in keep else '_' for p, _ in pars)
        else:
            e = [(p, t) for p, t in pars if 'Error' in t or t == 'E' or t.startswith('Invalid')]
            if e:
                assert len(e) == 1, (name, v)
                rhs = f'MarkOf.mark {e[0][0]}'
                pat = ' '.join(p if p == e[0][0] else '_' for p, _ in pars)
            else:
                rhs = 'none'
                pat = ' '.join('_' for _ in pars)
        out += f'    | .{v} {pat}'.rstrip() + f' => {rhs}\n'
out += '\nend Wadec\n'
assert used == set(SPECIAL), set(SPECIAL) - used
open(os.path.join(root, 'Spec', 'MarkOf.lean'), 'w').write(out)
