/-! # Model of /repo/src/sha3/keccak4x/brg_endian.h and of the check of the byte order in KeccakP-1600-times4-SIMD256.c

The preprocessor sees four families of macros and a set of names of machines.  A macro that is defined has a value that can
be compared with `==` (a macro with an empty body would be an error in the conditions that compare it). -/

namespace Frodo

/-- The values of `PLATFORM_BYTE_ORDER` (/repo/src/sha3/keccak4x/brg_endian.h:32-33). -/
inductive ByteOrder where
  | big
  | little
deriving DecidableEq

/-- One family of macros, e.g. `__BIG_ENDIAN`, `__LITTLE_ENDIAN`, `__BYTE_ORDER`: the value of each, `none` if it is not
defined (/repo/src/sha3/keccak4x/brg_endian.h:58-68). -/
structure EndianFamily where
  big : Option Int
  little : Option Int
  order : Option Int
deriving DecidableEq

/-- What one of the four blocks of conditions defines (/repo/src/sha3/keccak4x/brg_endian.h:58-68, 70-80, 82-92, 94-104). -/
def EndianFamily.define (f : EndianFamily) : Option ByteOrder :=
  match f.big, f.little with
  | some b, some l =>
    if f.order = some b then some .big
    else if f.order = some l then some .little
    else none
  | some _, none => some .big
  | none, some _ => some .little
  | none, none => none

/-- What the preprocessor sees: the families `X`, `_X`, `__X`, `__X__` (/repo/src/sha3/keccak4x/brg_endian.h:54-104) and the
names of machines (lines 110-136). -/
structure EndianMacros where
  plain : EndianFamily
  under : EndianFamily
  dunder : EndianFamily
  both : EndianFamily
  names : List String

/-- The names of machines with the least significant byte first (/repo/src/sha3/keccak4x/brg_endian.h:110-114). -/
def littleNames : List String :=
  ["__alpha__", "__alpha", "i386", "__i386__", "_M_I86", "_M_IX86", "__OS2__", "sun386", "__TURBOC__", "vax", "vms", "VMS",
    "__VMS", "_M_X64"]

/-- The names of machines with the most significant byte first (/repo/src/sha3/keccak4x/brg_endian.h:117-123). -/
def bigNames : List String :=
  ["AMIGA", "applec", "__AS400__", "_CRAY", "__hppa", "__hp9000", "ibm370", "mc68000", "m68k", "__MRC__", "__MVS__",
    "__MWERKS__", "sparc", "__sparc", "SYMANTEC_C", "__VOS__", "__TIGCC__", "__TANDEM", "THINK_C", "__VMCMS__", "_AIX"]

/-- The result of the header: a byte order, or two definitions of `PLATFORM_BYTE_ORDER` that differ, which violates a
constraint (C11 6.10.3p2). -/
inductive EndianResult where
  | order (o : ByteOrder)
  | redefined
deriving DecidableEq

/-- The four blocks in order: the definitions made (/repo/src/sha3/keccak4x/brg_endian.h:58-104). -/
def EndianMacros.defined (m : EndianMacros) : List ByteOrder :=
  [m.plain.define, m.under.define, m.dunder.define, m.both.define].filterMap id

/-- The choice by the name of the machine (/repo/src/sha3/keccak4x/brg_endian.h:110-136); line 132 is `#elif 1`. -/
def EndianMacros.machine (m : EndianMacros) : ByteOrder :=
  if m.names.any (littleNames.contains ·) then .little
  else if m.names.any (bigNames.contains ·) then .big
  else if m.names.contains "__arm__" then
    if m.dunder.big.isSome then .big else .little
  else .little

/-- The header (/repo/src/sha3/keccak4x/brg_endian.h:29-142). -/
def EndianMacros.result (m : EndianMacros) : EndianResult :=
  match m.defined with
  | [] => .order m.machine
  | o :: os => if os.all (· = o) then .order o else .redefined

/-- The check `#if (PLATFORM_BYTE_ORDER != IS_LITTLE_ENDIAN) #error`
(/repo/src/sha3/keccak4x/KeccakP-1600-times4-SIMD256.c:27-30). -/
def EndianMacros.accepted (m : EndianMacros) : Bool := decide (m.result = .order .little)

end Frodo
