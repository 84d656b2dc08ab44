import Verif.BitPack

/-!
# Generated by tools/bitpack2lean.py from hwy/contrib/bit_pack/bit_pack-inl.h

One statement per C++ statement, in source order; `let` names are the C++ variables.
-/

namespace Hwy
namespace BitPack

/-- `Pack8<1>::Pack` (bit_pack-inl.h:50-70). -/
def pack8_1_pack : List Stmt :=
  let raw0 := 0; let raw1 := 1; let raw2 := 2; let raw3 := 3; let raw4 := 4; let raw5 := 5; let raw6 := 6; let raw7 := 7
  let packed := 8
  [.load raw0 0,
   .load raw1 1,
   .load raw2 2,
   .load raw3 3,
   .load raw4 4,
   .load raw5 5,
   .load raw6 6,
   .load raw7 7,
   .set packed (.xor3 (.or (.shl 7 (.v raw7)) (.shl 6 (.v raw6))) (.xor3 (.shl 5 (.v raw5)) (.shl 4 (.v raw4)) (.shl 3 (.v raw3))) (.xor3 (.shl 2 (.v raw2)) (.shl 1 (.v raw1)) (.v raw0))),
   .store (.v packed) 0]

/-- `Pack8<1>::Unpack` (bit_pack-inl.h:73-105). -/
def pack8_1_unpack : List Stmt :=
  let mask := 0; let packed := 1; let raw0 := 2; let raw1 := 3; let raw2 := 4; let raw3 := 5; let raw4 := 6; let raw5 := 7
  let raw6 := 8; let raw7 := 9
  [.set mask (.c 0x0101),
   .load packed 0,
   .set raw0 (.and (.v packed) (.v mask)),
   .store (.v raw0) 0,
   .set raw1 (.and (.shr 1 (.v packed)) (.v mask)),
   .store (.v raw1) 1,
   .set raw2 (.and (.shr 2 (.v packed)) (.v mask)),
   .store (.v raw2) 2,
   .set raw3 (.and (.shr 3 (.v packed)) (.v mask)),
   .store (.v raw3) 3,
   .set raw4 (.and (.shr 4 (.v packed)) (.v mask)),
   .store (.v raw4) 4,
   .set raw5 (.and (.shr 5 (.v packed)) (.v mask)),
   .store (.v raw5) 5,
   .set raw6 (.and (.shr 6 (.v packed)) (.v mask)),
   .store (.v raw6) 6,
   .set raw7 (.and (.shr 7 (.v packed)) (.v mask)),
   .store (.v raw7) 7]

/-- `Pack8<2>::Pack` (bit_pack-inl.h:111-132). -/
def pack8_2_pack : List Stmt :=
  let raw0 := 0; let raw1 := 1; let raw2 := 2; let raw3 := 3; let raw4 := 4; let raw5 := 5; let raw6 := 6; let raw7 := 7
  let packed0 := 8; let packed1 := 9
  [.load raw0 0,
   .load raw1 1,
   .load raw2 2,
   .load raw3 3,
   .load raw4 4,
   .load raw5 5,
   .load raw6 6,
   .load raw7 7,
   .set packed0 (.xor3 (.shl 6 (.v raw6)) (.shl 4 (.v raw4)) (.or (.shl 2 (.v raw2)) (.v raw0))),
   .set packed1 (.xor3 (.shl 6 (.v raw7)) (.shl 4 (.v raw5)) (.or (.shl 2 (.v raw3)) (.v raw1))),
   .store (.v packed0) 0,
   .store (.v packed1) 1]

/-- `Pack8<2>::Unpack` (bit_pack-inl.h:135-168). -/
def pack8_2_unpack : List Stmt :=
  let mask := 0; let packed0 := 1; let packed1 := 2; let raw0 := 3; let raw1 := 4; let raw2 := 5; let raw3 := 6; let raw4 := 7
  let raw5 := 8; let raw6 := 9; let raw7 := 10
  [.set mask (.c 0x0303),
   .load packed0 0,
   .load packed1 1,
   .set raw0 (.and (.v packed0) (.v mask)),
   .store (.v raw0) 0,
   .set raw1 (.and (.v packed1) (.v mask)),
   .store (.v raw1) 1,
   .set raw2 (.and (.shr 2 (.v packed0)) (.v mask)),
   .store (.v raw2) 2,
   .set raw3 (.and (.shr 2 (.v packed1)) (.v mask)),
   .store (.v raw3) 3,
   .set raw4 (.and (.shr 4 (.v packed0)) (.v mask)),
   .store (.v raw4) 4,
   .set raw5 (.and (.shr 4 (.v packed1)) (.v mask)),
   .store (.v raw5) 5,
   .set raw6 (.and (.shr 6 (.v packed0)) (.v mask)),
   .store (.v raw6) 6,
   .set raw7 (.and (.shr 6 (.v packed1)) (.v mask)),
   .store (.v raw7) 7]

/-- `Pack8<3>::Pack` (bit_pack-inl.h:174-201). -/
def pack8_3_pack : List Stmt :=
  let raw0 := 0; let raw1 := 1; let raw2 := 2; let raw3 := 3; let raw4 := 4; let raw5 := 5; let raw6 := 6; let raw7 := 7
  let packed0 := 8; let packed1 := 9; let packed2 := 10; let packed3 := 11; let hi2 := 12
  [.load raw0 0,
   .load raw1 1,
   .load raw2 2,
   .load raw3 3,
   .load raw4 4,
   .load raw5 5,
   .load raw6 6,
   .load raw7 7,
   .set packed0 (.or (.shl 3 (.v raw4)) (.v raw0)),
   .set packed1 (.or (.shl 3 (.v raw5)) (.v raw1)),
   .set packed2 (.or (.shl 3 (.v raw6)) (.v raw2)),
   .set packed3 (.or (.shl 3 (.v raw7)) (.v raw3)),
   .set hi2 (.c 0xC0C0),
   .set packed0 (.orAnd (.v packed0) (.shl 2 (.v packed3)) (.v hi2)),
   .set packed1 (.orAnd (.v packed1) (.shl 4 (.v packed3)) (.v hi2)),
   .set packed2 (.orAnd (.v packed2) (.shl 6 (.v packed3)) (.v hi2)),
   .store (.v packed0) 0,
   .store (.v packed1) 1,
   .store (.v packed2) 2]

/-- `Pack8<3>::Unpack` (bit_pack-inl.h:204-244). -/
def pack8_3_unpack : List Stmt :=
  let mask := 0; let packed0 := 1; let packed1 := 2; let packed2 := 3; let raw0 := 4; let raw1 := 5; let raw2 := 6; let raw4 := 7
  let raw5 := 8; let raw6 := 9; let hi2 := 10; let raw73 := 11; let raw3 := 12; let raw7 := 13
  [.set mask (.c 0x0707),
   .load packed0 0,
   .load packed1 1,
   .load packed2 2,
   .set raw0 (.and (.v packed0) (.v mask)),
   .store (.v raw0) 0,
   .set raw1 (.and (.v packed1) (.v mask)),
   .store (.v raw1) 1,
   .set raw2 (.and (.v packed2) (.v mask)),
   .store (.v raw2) 2,
   .set raw4 (.and (.shr 3 (.v packed0)) (.v mask)),
   .store (.v raw4) 4,
   .set raw5 (.and (.shr 3 (.v packed1)) (.v mask)),
   .store (.v raw5) 5,
   .set raw6 (.and (.shr 3 (.v packed2)) (.v mask)),
   .store (.v raw6) 6,
   .set hi2 (.c 0xC0C0),
   .set raw73 (.xor3 (.shr 6 (.and (.v packed2) (.v hi2))) (.shr 4 (.and (.v packed1) (.v hi2))) (.shr 2 (.and (.v packed0) (.v hi2)))),
   .set raw3 (.and (.v mask) (.v raw73)),
   .store (.v raw3) 3,
   .set raw7 (.and (.v mask) (.shr 3 (.v raw73))),
   .store (.v raw7) 7]

/-- `Pack8<4>::Pack` (bit_pack-inl.h:250-274). -/
def pack8_4_pack : List Stmt :=
  let raw0 := 0; let raw1 := 1; let raw2 := 2; let raw3 := 3; let raw4 := 4; let raw5 := 5; let raw6 := 6; let raw7 := 7
  let packed0 := 8; let packed1 := 9; let packed2 := 10; let packed3 := 11
  [.load raw0 0,
   .load raw1 1,
   .load raw2 2,
   .load raw3 3,
   .load raw4 4,
   .load raw5 5,
   .load raw6 6,
   .load raw7 7,
   .set packed0 (.or (.shl 4 (.v raw2)) (.v raw0)),
   .set packed1 (.or (.shl 4 (.v raw3)) (.v raw1)),
   .set packed2 (.or (.shl 4 (.v raw6)) (.v raw4)),
   .set packed3 (.or (.shl 4 (.v raw7)) (.v raw5)),
   .store (.v packed0) 0,
   .store (.v packed1) 1,
   .store (.v packed2) 2,
   .store (.v packed3) 3]

/-- `Pack8<4>::Unpack` (bit_pack-inl.h:277-312). -/
def pack8_4_unpack : List Stmt :=
  let mask := 0; let packed0 := 1; let packed1 := 2; let packed2 := 3; let packed3 := 4; let raw0 := 5; let raw1 := 6; let raw2 := 7
  let raw3 := 8; let raw4 := 9; let raw5 := 10; let raw6 := 11; let raw7 := 12
  [.set mask (.c 0x0F0F),
   .load packed0 0,
   .load packed1 1,
   .load packed2 2,
   .load packed3 3,
   .set raw0 (.and (.v packed0) (.v mask)),
   .store (.v raw0) 0,
   .set raw1 (.and (.v packed1) (.v mask)),
   .store (.v raw1) 1,
   .set raw2 (.and (.shr 4 (.v packed0)) (.v mask)),
   .store (.v raw2) 2,
   .set raw3 (.and (.shr 4 (.v packed1)) (.v mask)),
   .store (.v raw3) 3,
   .set raw4 (.and (.v packed2) (.v mask)),
   .store (.v raw4) 4,
   .set raw5 (.and (.v packed3) (.v mask)),
   .store (.v raw5) 5,
   .set raw6 (.and (.shr 4 (.v packed2)) (.v mask)),
   .store (.v raw6) 6,
   .set raw7 (.and (.shr 4 (.v packed3)) (.v mask)),
   .store (.v raw7) 7]

/-- `Pack8<5>::Pack` (bit_pack-inl.h:318-350). -/
def pack8_5_pack : List Stmt :=
  let raw0 := 0; let raw1 := 1; let raw2 := 2; let raw3 := 3; let raw4 := 4; let raw5 := 5; let raw6 := 6; let raw7 := 7
  let hi3 := 8; let packed0 := 9; let packed1 := 10; let packed2 := 11; let packed3 := 12; let lo2 := 13; let packed4 := 14
  [.load raw0 0,
   .load raw1 1,
   .load raw2 2,
   .load raw3 3,
   .load raw4 4,
   .load raw5 5,
   .load raw6 6,
   .load raw7 7,
   .set hi3 (.c 0xE0E0),
   .set packed0 (.orAnd (.v raw0) (.shl 3 (.v raw4)) (.v hi3)),
   .set packed1 (.orAnd (.v raw1) (.shl 3 (.v raw5)) (.v hi3)),
   .set packed2 (.orAnd (.v raw2) (.shl 3 (.v raw6)) (.v hi3)),
   .set packed3 (.orAnd (.v raw3) (.shl 3 (.v raw7)) (.v hi3)),
   .store (.v packed0) 0,
   .store (.v packed1) 1,
   .store (.v packed2) 2,
   .store (.v packed3) 3,
   .set lo2 (.c 0x0303),
   .set packed4 (.or (.and (.v raw4) (.v lo2)) (.xor3 (.shl 2 (.and (.v raw5) (.v lo2))) (.shl 4 (.and (.v raw6) (.v lo2))) (.shl 6 (.and (.v raw7) (.v lo2))))),
   .store (.v packed4) 4]

/-- `Pack8<5>::Unpack` (bit_pack-inl.h:353-396). -/
def pack8_5_unpack : List Stmt :=
  let packed0 := 0; let packed1 := 1; let packed2 := 2; let packed3 := 3; let packed4 := 4; let mask := 5; let raw0 := 6; let raw1 := 7
  let raw2 := 8; let raw3 := 9; let top4 := 10; let top5 := 11; let top6 := 12; let top7 := 13; let lo2 := 14; let raw4 := 15
  let raw5 := 16; let raw6 := 17; let raw7 := 18
  [.load packed0 0,
   .load packed1 1,
   .load packed2 2,
   .load packed3 3,
   .load packed4 4,
   .set mask (.c 0x1F1F),
   .set raw0 (.and (.v packed0) (.v mask)),
   .store (.v raw0) 0,
   .set raw1 (.and (.v packed1) (.v mask)),
   .store (.v raw1) 1,
   .set raw2 (.and (.v packed2) (.v mask)),
   .store (.v raw2) 2,
   .set raw3 (.and (.v packed3) (.v mask)),
   .store (.v raw3) 3,
   .set top4 (.shr 3 (.andNot (.v mask) (.v packed0))),
   .set top5 (.shr 3 (.andNot (.v mask) (.v packed1))),
   .set top6 (.shr 3 (.andNot (.v mask) (.v packed2))),
   .set top7 (.shr 3 (.andNot (.v mask) (.v packed3))),
   .set lo2 (.c 0x0303),
   .set raw4 (.orAnd (.v top4) (.v lo2) (.v packed4)),
   .set raw5 (.orAnd (.v top5) (.v lo2) (.shr 2 (.v packed4))),
   .set raw6 (.orAnd (.v top6) (.v lo2) (.shr 4 (.v packed4))),
   .set raw7 (.orAnd (.v top7) (.v lo2) (.shr 6 (.v packed4))),
   .store (.v raw4) 4,
   .store (.v raw5) 5,
   .store (.v raw6) 6,
   .store (.v raw7) 7]

/-- `Pack8<6>::Pack` (bit_pack-inl.h:402-431). -/
def pack8_6_pack : List Stmt :=
  let raw0 := 0; let raw1 := 1; let raw2 := 2; let raw3 := 3; let raw4 := 4; let raw5 := 5; let raw6 := 6; let raw7 := 7
  let hi2 := 8; let packed0 := 9; let packed1 := 10; let packed2 := 11; let packed3 := 12; let packed4 := 13; let packed5 := 14
  [.load raw0 0,
   .load raw1 1,
   .load raw2 2,
   .load raw3 3,
   .load raw4 4,
   .load raw5 5,
   .load raw6 6,
   .load raw7 7,
   .set hi2 (.c 0xC0C0),
   .set packed0 (.orAnd (.v raw0) (.shl 2 (.v raw3)) (.v hi2)),
   .set packed1 (.orAnd (.v raw1) (.shl 4 (.v raw3)) (.v hi2)),
   .set packed2 (.orAnd (.v raw2) (.shl 6 (.v raw3)) (.v hi2)),
   .set packed3 (.orAnd (.v raw4) (.shl 2 (.v raw7)) (.v hi2)),
   .set packed4 (.orAnd (.v raw5) (.shl 4 (.v raw7)) (.v hi2)),
   .set packed5 (.orAnd (.v raw6) (.shl 6 (.v raw7)) (.v hi2)),
   .store (.v packed0) 0,
   .store (.v packed1) 1,
   .store (.v packed2) 2,
   .store (.v packed3) 3,
   .store (.v packed4) 4,
   .store (.v packed5) 5]

/-- `Pack8<6>::Unpack` (bit_pack-inl.h:434-475). -/
def pack8_6_unpack : List Stmt :=
  let mask := 0; let packed0 := 1; let packed1 := 2; let packed2 := 3; let packed3 := 4; let packed4 := 5; let packed5 := 6; let raw0 := 7
  let raw1 := 8; let raw2 := 9; let raw4 := 10; let raw5 := 11; let raw6 := 12; let raw3 := 13; let raw7 := 14
  [.set mask (.c 0x3F3F),
   .load packed0 0,
   .load packed1 1,
   .load packed2 2,
   .load packed3 3,
   .load packed4 4,
   .load packed5 5,
   .set raw0 (.and (.v packed0) (.v mask)),
   .store (.v raw0) 0,
   .set raw1 (.and (.v packed1) (.v mask)),
   .store (.v raw1) 1,
   .set raw2 (.and (.v packed2) (.v mask)),
   .store (.v raw2) 2,
   .set raw4 (.and (.v packed3) (.v mask)),
   .store (.v raw4) 4,
   .set raw5 (.and (.v packed4) (.v mask)),
   .store (.v raw5) 5,
   .set raw6 (.and (.v packed5) (.v mask)),
   .store (.v raw6) 6,
   .set raw3 (.xor3 (.shr 6 (.andNot (.v mask) (.v packed2))) (.shr 4 (.andNot (.v mask) (.v packed1))) (.shr 2 (.andNot (.v mask) (.v packed0)))),
   .set raw7 (.xor3 (.shr 6 (.andNot (.v mask) (.v packed5))) (.shr 4 (.andNot (.v mask) (.v packed4))) (.shr 2 (.andNot (.v mask) (.v packed3)))),
   .store (.v raw3) 3,
   .store (.v raw7) 7]

/-- `Pack8<7>::Pack` (bit_pack-inl.h:481-512). -/
def pack8_7_pack : List Stmt :=
  let raw0 := 0; let raw1 := 1; let raw2 := 2; let raw3 := 3; let raw4 := 4; let raw5 := 5; let raw6 := 6; let raw7 := 7
  let hi1 := 8; let packed0 := 9; let packed1 := 10; let packed2 := 11; let packed3 := 12; let packed4 := 13; let packed5 := 14; let packed6 := 15
  [.load raw0 0,
   .load raw1 1,
   .load raw2 2,
   .load raw3 3,
   .load raw4 4,
   .load raw5 5,
   .load raw6 6,
   .load raw7 7,
   .set hi1 (.c 0x8080),
   .set packed0 (.orAnd (.v raw0) (.add (.v raw7) (.v raw7)) (.v hi1)),
   .set packed1 (.orAnd (.v raw1) (.shl 2 (.v raw7)) (.v hi1)),
   .set packed2 (.orAnd (.v raw2) (.shl 3 (.v raw7)) (.v hi1)),
   .set packed3 (.orAnd (.v raw3) (.shl 4 (.v raw7)) (.v hi1)),
   .set packed4 (.orAnd (.v raw4) (.shl 5 (.v raw7)) (.v hi1)),
   .set packed5 (.orAnd (.v raw5) (.shl 6 (.v raw7)) (.v hi1)),
   .set packed6 (.orAnd (.v raw6) (.shl 7 (.v raw7)) (.v hi1)),
   .store (.v packed0) 0,
   .store (.v packed1) 1,
   .store (.v packed2) 2,
   .store (.v packed3) 3,
   .store (.v packed4) 4,
   .store (.v packed5) 5,
   .store (.v packed6) 6]

/-- `Pack8<7>::Unpack` (bit_pack-inl.h:515-560). -/
def pack8_7_unpack : List Stmt :=
  let packed0 := 0; let packed1 := 1; let packed2 := 2; let packed3 := 3; let packed4 := 4; let packed5 := 5; let packed6 := 6; let mask := 7
  let raw0 := 8; let raw1 := 9; let raw2 := 10; let raw3 := 11; let raw4 := 12; let raw5 := 13; let raw6 := 14; let p0 := 15
  let p1 := 16; let raw7 := 17
  [.load packed0 0,
   .load packed1 1,
   .load packed2 2,
   .load packed3 3,
   .load packed4 4,
   .load packed5 5,
   .load packed6 6,
   .set mask (.c 0x7F7F),
   .set raw0 (.and (.v packed0) (.v mask)),
   .store (.v raw0) 0,
   .set raw1 (.and (.v packed1) (.v mask)),
   .store (.v raw1) 1,
   .set raw2 (.and (.v packed2) (.v mask)),
   .store (.v raw2) 2,
   .set raw3 (.and (.v packed3) (.v mask)),
   .store (.v raw3) 3,
   .set raw4 (.and (.v packed4) (.v mask)),
   .store (.v raw4) 4,
   .set raw5 (.and (.v packed5) (.v mask)),
   .store (.v raw5) 5,
   .set raw6 (.and (.v packed6) (.v mask)),
   .store (.v raw6) 6,
   .set p0 (.xor3 (.shr 7 (.andNot (.v mask) (.v packed6))) (.shr 6 (.andNot (.v mask) (.v packed5))) (.shr 5 (.andNot (.v mask) (.v packed4)))),
   .set p1 (.xor3 (.shr 4 (.andNot (.v mask) (.v packed3))) (.shr 3 (.andNot (.v mask) (.v packed2))) (.shr 2 (.andNot (.v mask) (.v packed1)))),
   .set raw7 (.xor3 (.shr 1 (.andNot (.v mask) (.v packed0))) (.v p0) (.v p1)),
   .store (.v raw7) 7]

/-- `Pack8<8>::Pack` (bit_pack-inl.h:566-587). -/
def pack8_8_pack : List Stmt :=
  let raw0 := 0; let raw1 := 1; let raw2 := 2; let raw3 := 3; let raw4 := 4; let raw5 := 5; let raw6 := 6; let raw7 := 7
  [.load raw0 0,
   .load raw1 1,
   .load raw2 2,
   .load raw3 3,
   .load raw4 4,
   .load raw5 5,
   .load raw6 6,
   .load raw7 7,
   .store (.v raw0) 0,
   .store (.v raw1) 1,
   .store (.v raw2) 2,
   .store (.v raw3) 3,
   .store (.v raw4) 4,
   .store (.v raw5) 5,
   .store (.v raw6) 6,
   .store (.v raw7) 7]

/-- `Pack8<8>::Unpack` (bit_pack-inl.h:590-611). -/
def pack8_8_unpack : List Stmt :=
  let raw0 := 0; let raw1 := 1; let raw2 := 2; let raw3 := 3; let raw4 := 4; let raw5 := 5; let raw6 := 6; let raw7 := 7
  [.load raw0 0,
   .load raw1 1,
   .load raw2 2,
   .load raw3 3,
   .load raw4 4,
   .load raw5 5,
   .load raw6 6,
   .load raw7 7,
   .store (.v raw0) 0,
   .store (.v raw1) 1,
   .store (.v raw2) 2,
   .store (.v raw3) 3,
   .store (.v raw4) 4,
   .store (.v raw5) 5,
   .store (.v raw6) 6,
   .store (.v raw7) 7]

/-- `Pack16<1>::Pack` (bit_pack-inl.h:617-650). -/
def pack16_1_pack : List Stmt :=
  let raw0 := 0; let raw1 := 1; let raw2 := 2; let raw3 := 3; let raw4 := 4; let raw5 := 5; let raw6 := 6; let raw7 := 7
  let raw8 := 8; let raw9 := 9; let rawA := 10; let rawB := 11; let rawC := 12; let rawD := 13; let rawE := 14; let rawF := 15
  let p0 := 16; let p1 := 17; let p2 := 18; let p3 := 19; let p4 := 20; let packed := 21
  [.load raw0 0,
   .load raw1 1,
   .load raw2 2,
   .load raw3 3,
   .load raw4 4,
   .load raw5 5,
   .load raw6 6,
   .load raw7 7,
   .load raw8 8,
   .load raw9 9,
   .load rawA 10,
   .load rawB 11,
   .load rawC 12,
   .load rawD 13,
   .load rawE 14,
   .load rawF 15,
   .set p0 (.xor3 (.shl 2 (.v raw2)) (.add (.v raw1) (.v raw1)) (.v raw0)),
   .set p1 (.xor3 (.shl 5 (.v raw5)) (.shl 4 (.v raw4)) (.shl 3 (.v raw3))),
   .set p2 (.xor3 (.shl 8 (.v raw8)) (.shl 7 (.v raw7)) (.shl 6 (.v raw6))),
   .set p3 (.xor3 (.shl 11 (.v rawB)) (.shl 10 (.v rawA)) (.shl 9 (.v raw9))),
   .set p4 (.xor3 (.shl 14 (.v rawE)) (.shl 13 (.v rawD)) (.shl 12 (.v rawC))),
   .set packed (.or (.xor3 (.shl 15 (.v rawF)) (.v p0) (.v p1)) (.xor3 (.v p2) (.v p3) (.v p4))),
   .store (.v packed) 0]

/-- `Pack16<1>::Unpack` (bit_pack-inl.h:653-708). -/
def pack16_1_unpack : List Stmt :=
  let mask := 0; let packed := 1; let raw0 := 2; let raw1 := 3; let raw2 := 4; let raw3 := 5; let raw4 := 6; let raw5 := 7
  let raw6 := 8; let raw7 := 9; let raw8 := 10; let raw9 := 11; let rawA := 12; let rawB := 13; let rawC := 14; let rawD := 15
  let rawE := 16; let rawF := 17
  [.set mask (.c 1),
   .load packed 0,
   .set raw0 (.and (.v packed) (.v mask)),
   .store (.v raw0) 0,
   .set raw1 (.and (.shr 1 (.v packed)) (.v mask)),
   .store (.v raw1) 1,
   .set raw2 (.and (.shr 2 (.v packed)) (.v mask)),
   .store (.v raw2) 2,
   .set raw3 (.and (.shr 3 (.v packed)) (.v mask)),
   .store (.v raw3) 3,
   .set raw4 (.and (.shr 4 (.v packed)) (.v mask)),
   .store (.v raw4) 4,
   .set raw5 (.and (.shr 5 (.v packed)) (.v mask)),
   .store (.v raw5) 5,
   .set raw6 (.and (.shr 6 (.v packed)) (.v mask)),
   .store (.v raw6) 6,
   .set raw7 (.and (.shr 7 (.v packed)) (.v mask)),
   .store (.v raw7) 7,
   .set raw8 (.and (.shr 8 (.v packed)) (.v mask)),
   .store (.v raw8) 8,
   .set raw9 (.and (.shr 9 (.v packed)) (.v mask)),
   .store (.v raw9) 9,
   .set rawA (.and (.shr 10 (.v packed)) (.v mask)),
   .store (.v rawA) 10,
   .set rawB (.and (.shr 11 (.v packed)) (.v mask)),
   .store (.v rawB) 11,
   .set rawC (.and (.shr 12 (.v packed)) (.v mask)),
   .store (.v rawC) 12,
   .set rawD (.and (.shr 13 (.v packed)) (.v mask)),
   .store (.v rawD) 13,
   .set rawE (.and (.shr 14 (.v packed)) (.v mask)),
   .store (.v rawE) 14,
   .set rawF (.shr 15 (.v packed)),
   .store (.v rawF) 15]

/-- `Pack16<2>::Pack` (bit_pack-inl.h:714-747). -/
def pack16_2_pack : List Stmt :=
  let raw0 := 0; let raw1 := 1; let raw2 := 2; let raw3 := 3; let raw4 := 4; let raw5 := 5; let raw6 := 6; let raw7 := 7
  let raw8 := 8; let raw9 := 9; let rawA := 10; let rawB := 11; let rawC := 12; let rawD := 13; let rawE := 14; let rawF := 15
  let packed0 := 16; let packed1 := 17
  [.load raw0 0,
   .load raw1 1,
   .load raw2 2,
   .load raw3 3,
   .load raw4 4,
   .load raw5 5,
   .load raw6 6,
   .load raw7 7,
   .load raw8 8,
   .load raw9 9,
   .load rawA 10,
   .load rawB 11,
   .load rawC 12,
   .load rawD 13,
   .load rawE 14,
   .load rawF 15,
   .set packed0 (.xor3 (.shl 4 (.v raw4)) (.shl 2 (.v raw2)) (.v raw0)),
   .set packed1 (.xor3 (.shl 4 (.v raw5)) (.shl 2 (.v raw3)) (.v raw1)),
   .set packed0 (.xor3 (.v packed0) (.shl 8 (.v raw8)) (.shl 6 (.v raw6))),
   .set packed1 (.xor3 (.v packed1) (.shl 8 (.v raw9)) (.shl 6 (.v raw7))),
   .set packed0 (.xor3 (.v packed0) (.shl 12 (.v rawC)) (.shl 10 (.v rawA))),
   .set packed1 (.xor3 (.v packed1) (.shl 12 (.v rawD)) (.shl 10 (.v rawB))),
   .set packed0 (.or (.v packed0) (.shl 14 (.v rawE))),
   .set packed1 (.or (.v packed1) (.shl 14 (.v rawF))),
   .store (.v packed0) 0,
   .store (.v packed1) 1]

/-- `Pack16<2>::Unpack` (bit_pack-inl.h:750-806). -/
def pack16_2_unpack : List Stmt :=
  let mask := 0; let packed0 := 1; let packed1 := 2; let raw0 := 3; let raw1 := 4; let raw2 := 5; let raw3 := 6; let raw4 := 7
  let raw5 := 8; let raw6 := 9; let raw7 := 10; let raw8 := 11; let raw9 := 12; let rawA := 13; let rawB := 14; let rawC := 15
  let rawD := 16; let rawE := 17; let rawF := 18
  [.set mask (.c 0x3),
   .load packed0 0,
   .load packed1 1,
   .set raw0 (.and (.v packed0) (.v mask)),
   .store (.v raw0) 0,
   .set raw1 (.and (.v packed1) (.v mask)),
   .store (.v raw1) 1,
   .set raw2 (.and (.shr 2 (.v packed0)) (.v mask)),
   .store (.v raw2) 2,
   .set raw3 (.and (.shr 2 (.v packed1)) (.v mask)),
   .store (.v raw3) 3,
   .set raw4 (.and (.shr 4 (.v packed0)) (.v mask)),
   .store (.v raw4) 4,
   .set raw5 (.and (.shr 4 (.v packed1)) (.v mask)),
   .store (.v raw5) 5,
   .set raw6 (.and (.shr 6 (.v packed0)) (.v mask)),
   .store (.v raw6) 6,
   .set raw7 (.and (.shr 6 (.v packed1)) (.v mask)),
   .store (.v raw7) 7,
   .set raw8 (.and (.shr 8 (.v packed0)) (.v mask)),
   .store (.v raw8) 8,
   .set raw9 (.and (.shr 8 (.v packed1)) (.v mask)),
   .store (.v raw9) 9,
   .set rawA (.and (.shr 10 (.v packed0)) (.v mask)),
   .store (.v rawA) 10,
   .set rawB (.and (.shr 10 (.v packed1)) (.v mask)),
   .store (.v rawB) 11,
   .set rawC (.and (.shr 12 (.v packed0)) (.v mask)),
   .store (.v rawC) 12,
   .set rawD (.and (.shr 12 (.v packed1)) (.v mask)),
   .store (.v rawD) 13,
   .set rawE (.shr 14 (.v packed0)),
   .store (.v rawE) 14,
   .set rawF (.shr 14 (.v packed1)),
   .store (.v rawF) 15]

/-- `Pack16<3>::Pack` (bit_pack-inl.h:812-850). -/
def pack16_3_pack : List Stmt :=
  let raw0 := 0; let raw1 := 1; let raw2 := 2; let raw3 := 3; let raw4 := 4; let raw5 := 5; let raw6 := 6; let raw7 := 7
  let raw8 := 8; let raw9 := 9; let rawA := 10; let rawB := 11; let rawC := 12; let rawD := 13; let rawE := 14; let rawF := 15
  let packed0 := 16; let packed1 := 17; let packed2 := 18; let hi1 := 19
  [.load raw0 0,
   .load raw1 1,
   .load raw2 2,
   .load raw3 3,
   .load raw4 4,
   .load raw5 5,
   .load raw6 6,
   .load raw7 7,
   .load raw8 8,
   .load raw9 9,
   .load rawA 10,
   .load rawB 11,
   .load rawC 12,
   .load rawD 13,
   .load rawE 14,
   .load rawF 15,
   .set packed0 (.xor3 (.shl 6 (.v raw6)) (.shl 3 (.v raw3)) (.v raw0)),
   .set packed1 (.xor3 (.shl 6 (.v raw7)) (.shl 3 (.v raw4)) (.v raw1)),
   .set packed2 (.xor3 (.shl 6 (.v raw8)) (.shl 3 (.v raw5)) (.v raw2)),
   .set packed0 (.xor3 (.v packed0) (.shl 12 (.v rawC)) (.shl 9 (.v raw9))),
   .set packed1 (.xor3 (.v packed1) (.shl 12 (.v rawD)) (.shl 9 (.v rawA))),
   .set packed2 (.xor3 (.v packed2) (.shl 12 (.v rawE)) (.shl 9 (.v rawB))),
   .set hi1 (.c 0x8000),
   .set packed0 (.or (.v packed0) (.shl 15 (.v rawF))),
   .set packed1 (.orAnd (.v packed1) (.shl 14 (.v rawF)) (.v hi1)),
   .set packed2 (.orAnd (.v packed2) (.shl 13 (.v rawF)) (.v hi1)),
   .store (.v packed0) 0,
   .store (.v packed1) 1,
   .store (.v packed2) 2]

/-- `Pack16<3>::Unpack` (bit_pack-inl.h:853-914). -/
def pack16_3_unpack : List Stmt :=
  let mask := 0; let packed0 := 1; let packed1 := 2; let packed2 := 3; let raw0 := 4; let raw1 := 5; let raw2 := 6; let raw3 := 7
  let raw4 := 8; let raw5 := 9; let raw6 := 10; let raw7 := 11; let raw8 := 12; let raw9 := 13; let rawA := 14; let rawB := 15
  let rawC := 16; let rawD := 17; let rawE := 18; let down0 := 19; let down1 := 20; let down2 := 21; let rawF := 22
  [.set mask (.c 0x7),
   .load packed0 0,
   .load packed1 1,
   .load packed2 2,
   .set raw0 (.and (.v mask) (.v packed0)),
   .store (.v raw0) 0,
   .set raw1 (.and (.v mask) (.v packed1)),
   .store (.v raw1) 1,
   .set raw2 (.and (.v mask) (.v packed2)),
   .store (.v raw2) 2,
   .set raw3 (.and (.v mask) (.shr 3 (.v packed0))),
   .store (.v raw3) 3,
   .set raw4 (.and (.v mask) (.shr 3 (.v packed1))),
   .store (.v raw4) 4,
   .set raw5 (.and (.v mask) (.shr 3 (.v packed2))),
   .store (.v raw5) 5,
   .set raw6 (.and (.v mask) (.shr 6 (.v packed0))),
   .store (.v raw6) 6,
   .set raw7 (.and (.v mask) (.shr 6 (.v packed1))),
   .store (.v raw7) 7,
   .set raw8 (.and (.v mask) (.shr 6 (.v packed2))),
   .store (.v raw8) 8,
   .set raw9 (.and (.v mask) (.shr 9 (.v packed0))),
   .store (.v raw9) 9,
   .set rawA (.and (.v mask) (.shr 9 (.v packed1))),
   .store (.v rawA) 10,
   .set rawB (.and (.v mask) (.shr 9 (.v packed2))),
   .store (.v rawB) 11,
   .set rawC (.and (.v mask) (.shr 12 (.v packed0))),
   .store (.v rawC) 12,
   .set rawD (.and (.v mask) (.shr 12 (.v packed1))),
   .store (.v rawD) 13,
   .set rawE (.and (.v mask) (.shr 12 (.v packed2))),
   .store (.v rawE) 14,
   .set down0 (.shr 15 (.v packed0)),
   .set down1 (.shr 15 (.v packed1)),
   .set down2 (.shr 15 (.v packed2)),
   .set rawF (.xor3 (.shl 2 (.v down2)) (.add (.v down1) (.v down1)) (.v down0)),
   .store (.v rawF) 15]

/-- `Pack16<4>::Pack` (bit_pack-inl.h:920-954). -/
def pack16_4_pack : List Stmt :=
  let raw0 := 0; let raw1 := 1; let raw2 := 2; let raw3 := 3; let raw4 := 4; let raw5 := 5; let raw6 := 6; let raw7 := 7
  let raw8 := 8; let raw9 := 9; let rawA := 10; let rawB := 11; let rawC := 12; let rawD := 13; let rawE := 14; let rawF := 15
  let packed0 := 16; let packed1 := 17; let packed2 := 18; let packed3 := 19
  [.load raw0 0,
   .load raw1 1,
   .load raw2 2,
   .load raw3 3,
   .load raw4 4,
   .load raw5 5,
   .load raw6 6,
   .load raw7 7,
   .load raw8 8,
   .load raw9 9,
   .load rawA 10,
   .load rawB 11,
   .load rawC 12,
   .load rawD 13,
   .load rawE 14,
   .load rawF 15,
   .set packed0 (.xor3 (.shl 8 (.v raw4)) (.shl 4 (.v raw2)) (.v raw0)),
   .set packed1 (.xor3 (.shl 8 (.v raw5)) (.shl 4 (.v raw3)) (.v raw1)),
   .set packed0 (.or (.v packed0) (.shl 12 (.v raw6))),
   .set packed1 (.or (.v packed1) (.shl 12 (.v raw7))),
   .set packed2 (.xor3 (.shl 8 (.v rawC)) (.shl 4 (.v rawA)) (.v raw8)),
   .set packed3 (.xor3 (.shl 8 (.v rawD)) (.shl 4 (.v rawB)) (.v raw9)),
   .set packed2 (.or (.v packed2) (.shl 12 (.v rawE))),
   .set packed3 (.or (.v packed3) (.shl 12 (.v rawF))),
   .store (.v packed0) 0,
   .store (.v packed1) 1,
   .store (.v packed2) 2,
   .store (.v packed3) 3]

/-- `Pack16<4>::Unpack` (bit_pack-inl.h:957-1015). -/
def pack16_4_unpack : List Stmt :=
  let mask := 0; let packed0 := 1; let packed1 := 2; let packed2 := 3; let packed3 := 4; let raw0 := 5; let raw1 := 6; let raw2 := 7
  let raw3 := 8; let raw4 := 9; let raw5 := 10; let raw6 := 11; let raw7 := 12; let raw8 := 13; let raw9 := 14; let rawA := 15
  let rawB := 16; let rawC := 17; let rawD := 18; let rawE := 19; let rawF := 20
  [.set mask (.c 0xF),
   .load packed0 0,
   .load packed1 1,
   .load packed2 2,
   .load packed3 3,
   .set raw0 (.and (.v packed0) (.v mask)),
   .store (.v raw0) 0,
   .set raw1 (.and (.v packed1) (.v mask)),
   .store (.v raw1) 1,
   .set raw2 (.and (.shr 4 (.v packed0)) (.v mask)),
   .store (.v raw2) 2,
   .set raw3 (.and (.shr 4 (.v packed1)) (.v mask)),
   .store (.v raw3) 3,
   .set raw4 (.and (.shr 8 (.v packed0)) (.v mask)),
   .store (.v raw4) 4,
   .set raw5 (.and (.shr 8 (.v packed1)) (.v mask)),
   .store (.v raw5) 5,
   .set raw6 (.shr 12 (.v packed0)),
   .store (.v raw6) 6,
   .set raw7 (.shr 12 (.v packed1)),
   .store (.v raw7) 7,
   .set raw8 (.and (.v packed2) (.v mask)),
   .store (.v raw8) 8,
   .set raw9 (.and (.v packed3) (.v mask)),
   .store (.v raw9) 9,
   .set rawA (.and (.shr 4 (.v packed2)) (.v mask)),
   .store (.v rawA) 10,
   .set rawB (.and (.shr 4 (.v packed3)) (.v mask)),
   .store (.v rawB) 11,
   .set rawC (.and (.shr 8 (.v packed2)) (.v mask)),
   .store (.v rawC) 12,
   .set rawD (.and (.shr 8 (.v packed3)) (.v mask)),
   .store (.v rawD) 13,
   .set rawE (.shr 12 (.v packed2)),
   .store (.v rawE) 14,
   .set rawF (.shr 12 (.v packed3)),
   .store (.v rawF) 15]

/-- `Pack16<5>::Pack` (bit_pack-inl.h:1021-1062). -/
def pack16_5_pack : List Stmt :=
  let raw0 := 0; let raw1 := 1; let raw2 := 2; let raw3 := 3; let raw4 := 4; let raw5 := 5; let raw6 := 6; let raw7 := 7
  let raw8 := 8; let raw9 := 9; let rawA := 10; let rawB := 11; let rawC := 12; let rawD := 13; let rawE := 14; let rawF := 15
  let packed0 := 16; let packed1 := 17; let packed2 := 18; let packed3 := 19; let packed4 := 20; let hi1 := 21
  [.load raw0 0,
   .load raw1 1,
   .load raw2 2,
   .load raw3 3,
   .load raw4 4,
   .load raw5 5,
   .load raw6 6,
   .load raw7 7,
   .load raw8 8,
   .load raw9 9,
   .load rawA 10,
   .load rawB 11,
   .load rawC 12,
   .load rawD 13,
   .load rawE 14,
   .load rawF 15,
   .set packed0 (.xor3 (.shl 10 (.v rawA)) (.shl 5 (.v raw5)) (.v raw0)),
   .set packed1 (.xor3 (.shl 10 (.v rawB)) (.shl 5 (.v raw6)) (.v raw1)),
   .set packed2 (.xor3 (.shl 10 (.v rawC)) (.shl 5 (.v raw7)) (.v raw2)),
   .set packed3 (.xor3 (.shl 10 (.v rawD)) (.shl 5 (.v raw8)) (.v raw3)),
   .set packed4 (.xor3 (.shl 10 (.v rawE)) (.shl 5 (.v raw9)) (.v raw4)),
   .set hi1 (.c 0x8000),
   .set packed0 (.or (.v packed0) (.shl 15 (.v rawF))),
   .set packed1 (.orAnd (.v packed1) (.shl 14 (.v rawF)) (.v hi1)),
   .set packed2 (.orAnd (.v packed2) (.shl 13 (.v rawF)) (.v hi1)),
   .set packed3 (.orAnd (.v packed3) (.shl 12 (.v rawF)) (.v hi1)),
   .set packed4 (.orAnd (.v packed4) (.shl 11 (.v rawF)) (.v hi1)),
   .store (.v packed0) 0,
   .store (.v packed1) 1,
   .store (.v packed2) 2,
   .store (.v packed3) 3,
   .store (.v packed4) 4]

/-- `Pack16<5>::Unpack` (bit_pack-inl.h:1065-1132). -/
def pack16_5_unpack : List Stmt :=
  let packed0 := 0; let packed1 := 1; let packed2 := 2; let packed3 := 3; let packed4 := 4; let mask := 5; let raw0 := 6; let raw1 := 7
  let raw2 := 8; let raw3 := 9; let raw4 := 10; let raw5 := 11; let raw6 := 12; let raw7 := 13; let raw8 := 14; let raw9 := 15
  let rawA := 16; let rawB := 17; let rawC := 18; let rawD := 19; let rawE := 20; let down0 := 21; let down1 := 22; let hi1 := 23
  let p0 := 24; let rawF := 25
  [.load packed0 0,
   .load packed1 1,
   .load packed2 2,
   .load packed3 3,
   .load packed4 4,
   .set mask (.c 0x1F),
   .set raw0 (.and (.v packed0) (.v mask)),
   .store (.v raw0) 0,
   .set raw1 (.and (.v packed1) (.v mask)),
   .store (.v raw1) 1,
   .set raw2 (.and (.v packed2) (.v mask)),
   .store (.v raw2) 2,
   .set raw3 (.and (.v packed3) (.v mask)),
   .store (.v raw3) 3,
   .set raw4 (.and (.v packed4) (.v mask)),
   .store (.v raw4) 4,
   .set raw5 (.and (.shr 5 (.v packed0)) (.v mask)),
   .store (.v raw5) 5,
   .set raw6 (.and (.shr 5 (.v packed1)) (.v mask)),
   .store (.v raw6) 6,
   .set raw7 (.and (.shr 5 (.v packed2)) (.v mask)),
   .store (.v raw7) 7,
   .set raw8 (.and (.shr 5 (.v packed3)) (.v mask)),
   .store (.v raw8) 8,
   .set raw9 (.and (.shr 5 (.v packed4)) (.v mask)),
   .store (.v raw9) 9,
   .set rawA (.and (.shr 10 (.v packed0)) (.v mask)),
   .store (.v rawA) 10,
   .set rawB (.and (.shr 10 (.v packed1)) (.v mask)),
   .store (.v rawB) 11,
   .set rawC (.and (.shr 10 (.v packed2)) (.v mask)),
   .store (.v rawC) 12,
   .set rawD (.and (.shr 10 (.v packed3)) (.v mask)),
   .store (.v rawD) 13,
   .set rawE (.and (.shr 10 (.v packed4)) (.v mask)),
   .store (.v rawE) 14,
   .set down0 (.shr 15 (.v packed0)),
   .set down1 (.shr 15 (.v packed1)),
   .set hi1 (.c 0x8000),
   .set p0 (.xor3 (.shr 13 (.and (.v packed2) (.v hi1))) (.add (.v down1) (.v down1)) (.v down0)),
   .set rawF (.xor3 (.shr 11 (.and (.v packed4) (.v hi1))) (.shr 12 (.and (.v packed3) (.v hi1))) (.v p0)),
   .store (.v rawF) 15]

/-- `Pack16<6>::Pack` (bit_pack-inl.h:1138-1182). -/
def pack16_6_pack : List Stmt :=
  let raw0 := 0; let raw1 := 1; let raw2 := 2; let raw3 := 3; let raw4 := 4; let raw5 := 5; let raw6 := 6; let raw7 := 7
  let raw8 := 8; let raw9 := 9; let rawA := 10; let rawB := 11; let rawC := 12; let rawD := 13; let rawE := 14; let rawF := 15
  let packed3 := 16; let packed7 := 17; let packed0 := 18; let packed1 := 19; let packed2 := 20; let packed4 := 21; let packed5 := 22; let packed6 := 23
  let hi4 := 24
  [.load raw0 0,
   .load raw1 1,
   .load raw2 2,
   .load raw3 3,
   .load raw4 4,
   .load raw5 5,
   .load raw6 6,
   .load raw7 7,
   .load raw8 8,
   .load raw9 9,
   .load rawA 10,
   .load rawB 11,
   .load rawC 12,
   .load rawD 13,
   .load rawE 14,
   .load rawF 15,
   .set packed3 (.or (.shl 6 (.v raw7)) (.v raw3)),
   .set packed7 (.or (.shl 6 (.v rawF)) (.v rawB)),
   .set packed0 (.xor3 (.shl 12 (.v packed3)) (.shl 6 (.v raw4)) (.v raw0)),
   .set packed1 (.or (.shl 6 (.v raw5)) (.v raw1)),
   .set packed2 (.or (.shl 6 (.v raw6)) (.v raw2)),
   .set packed4 (.xor3 (.shl 12 (.v packed7)) (.shl 6 (.v rawC)) (.v raw8)),
   .set packed5 (.or (.shl 6 (.v rawD)) (.v raw9)),
   .set packed6 (.or (.shl 6 (.v rawE)) (.v rawA)),
   .set hi4 (.c 0xF000),
   .set packed1 (.orAnd (.v packed1) (.shl 8 (.v packed3)) (.v hi4)),
   .set packed2 (.orAnd (.v packed2) (.shl 4 (.v packed3)) (.v hi4)),
   .set packed5 (.orAnd (.v packed5) (.shl 8 (.v packed7)) (.v hi4)),
   .set packed6 (.orAnd (.v packed6) (.shl 4 (.v packed7)) (.v hi4)),
   .store (.v packed0) 0,
   .store (.v packed1) 1,
   .store (.v packed2) 2,
   .store (.v packed4) 3,
   .store (.v packed5) 4,
   .store (.v packed6) 5]

/-- `Pack16<6>::Unpack` (bit_pack-inl.h:1185-1253). -/
def pack16_6_unpack : List Stmt :=
  let mask := 0; let packed0 := 1; let packed1 := 2; let packed2 := 3; let packed4 := 4; let packed5 := 5; let packed6 := 6; let raw0 := 7
  let raw1 := 8; let raw2 := 9; let raw4 := 10; let raw5 := 11; let raw6 := 12; let raw8 := 13; let raw9 := 14; let rawA := 15
  let rawC := 16; let rawD := 17; let rawE := 18; let down0 := 19; let down4 := 20; let hi4 := 21; let packed3 := 22; let packed7 := 23
  let raw3 := 24; let rawB := 25; let raw7 := 26; let rawF := 27
  [.set mask (.c 0x3F),
   .load packed0 0,
   .load packed1 1,
   .load packed2 2,
   .load packed4 3,
   .load packed5 4,
   .load packed6 5,
   .set raw0 (.and (.v packed0) (.v mask)),
   .store (.v raw0) 0,
   .set raw1 (.and (.v packed1) (.v mask)),
   .store (.v raw1) 1,
   .set raw2 (.and (.v packed2) (.v mask)),
   .store (.v raw2) 2,
   .set raw4 (.and (.shr 6 (.v packed0)) (.v mask)),
   .store (.v raw4) 4,
   .set raw5 (.and (.shr 6 (.v packed1)) (.v mask)),
   .store (.v raw5) 5,
   .set raw6 (.and (.shr 6 (.v packed2)) (.v mask)),
   .store (.v raw6) 6,
   .set raw8 (.and (.v packed4) (.v mask)),
   .store (.v raw8) 8,
   .set raw9 (.and (.v packed5) (.v mask)),
   .store (.v raw9) 9,
   .set rawA (.and (.v packed6) (.v mask)),
   .store (.v rawA) 10,
   .set rawC (.and (.shr 6 (.v packed4)) (.v mask)),
   .store (.v rawC) 12,
   .set rawD (.and (.shr 6 (.v packed5)) (.v mask)),
   .store (.v rawD) 13,
   .set rawE (.and (.shr 6 (.v packed6)) (.v mask)),
   .store (.v rawE) 14,
   .set down0 (.shr 12 (.v packed0)),
   .set down4 (.shr 12 (.v packed4)),
   .set hi4 (.c 0xF000),
   .set packed3 (.xor3 (.shr 4 (.and (.v packed2) (.v hi4))) (.shr 8 (.and (.v packed1) (.v hi4))) (.v down0)),
   .set packed7 (.xor3 (.shr 4 (.and (.v packed6) (.v hi4))) (.shr 8 (.and (.v packed5) (.v hi4))) (.v down4)),
   .set raw3 (.and (.v packed3) (.v mask)),
   .store (.v raw3) 3,
   .set rawB (.and (.v packed7) (.v mask)),
   .store (.v rawB) 11,
   .set raw7 (.shr 6 (.v packed3)),
   .store (.v raw7) 7,
   .set rawF (.shr 6 (.v packed7)),
   .store (.v rawF) 15]

/-- `Pack16<7>::Pack` (bit_pack-inl.h:1259-1306). -/
def pack16_7_pack : List Stmt :=
  let raw0 := 0; let raw1 := 1; let raw2 := 2; let raw3 := 3; let raw4 := 4; let raw5 := 5; let raw6 := 6; let raw7 := 7
  let raw8 := 8; let raw9 := 9; let rawA := 10; let rawB := 11; let rawC := 12; let rawD := 13; let rawE := 14; let rawF := 15
  let packed7 := 16; let packed0 := 17; let packed1 := 18; let packed2 := 19; let packed3 := 20; let packed4 := 21; let packed5 := 22; let packed6 := 23
  let hi2 := 24
  [.load raw0 0,
   .load raw1 1,
   .load raw2 2,
   .load raw3 3,
   .load raw4 4,
   .load raw5 5,
   .load raw6 6,
   .load raw7 7,
   .load raw8 8,
   .load raw9 9,
   .load rawA 10,
   .load rawB 11,
   .load rawC 12,
   .load rawD 13,
   .load rawE 14,
   .load rawF 15,
   .set packed7 (.or (.shl 7 (.v rawF)) (.v raw7)),
   .set packed0 (.xor3 (.shl 14 (.v packed7)) (.shl 7 (.v raw8)) (.v raw0)),
   .set packed1 (.or (.shl 7 (.v raw9)) (.v raw1)),
   .set packed2 (.or (.shl 7 (.v rawA)) (.v raw2)),
   .set packed3 (.or (.shl 7 (.v rawB)) (.v raw3)),
   .set packed4 (.or (.shl 7 (.v rawC)) (.v raw4)),
   .set packed5 (.or (.shl 7 (.v rawD)) (.v raw5)),
   .set packed6 (.or (.shl 7 (.v rawE)) (.v raw6)),
   .set hi2 (.c 0xC000),
   .set packed1 (.orAnd (.v packed1) (.shl 12 (.v packed7)) (.v hi2)),
   .set packed2 (.orAnd (.v packed2) (.shl 10 (.v packed7)) (.v hi2)),
   .set packed3 (.orAnd (.v packed3) (.shl 8 (.v packed7)) (.v hi2)),
   .set packed4 (.orAnd (.v packed4) (.shl 6 (.v packed7)) (.v hi2)),
   .set packed5 (.orAnd (.v packed5) (.shl 4 (.v packed7)) (.v hi2)),
   .set packed6 (.orAnd (.v packed6) (.shl 2 (.v packed7)) (.v hi2)),
   .store (.v packed0) 0,
   .store (.v packed1) 1,
   .store (.v packed2) 2,
   .store (.v packed3) 3,
   .store (.v packed4) 4,
   .store (.v packed5) 5,
   .store (.v packed6) 6]

/-- `Pack16<7>::Unpack` (bit_pack-inl.h:1309-1381). -/
def pack16_7_unpack : List Stmt :=
  let packed0 := 0; let packed1 := 1; let packed2 := 2; let packed3 := 3; let packed4 := 4; let packed5 := 5; let packed6 := 6; let mask := 7
  let raw0 := 8; let raw1 := 9; let raw2 := 10; let raw3 := 11; let raw4 := 12; let raw5 := 13; let raw6 := 14; let raw8 := 15
  let raw9 := 16; let rawA := 17; let rawB := 18; let rawC := 19; let rawD := 20; let rawE := 21; let down0 := 22; let hi2 := 23
  let p0 := 24; let p1 := 25; let packed7 := 26; let raw7 := 27; let rawF := 28
  [.load packed0 0,
   .load packed1 1,
   .load packed2 2,
   .load packed3 3,
   .load packed4 4,
   .load packed5 5,
   .load packed6 6,
   .set mask (.c 0x7F),
   .set raw0 (.and (.v packed0) (.v mask)),
   .store (.v raw0) 0,
   .set raw1 (.and (.v packed1) (.v mask)),
   .store (.v raw1) 1,
   .set raw2 (.and (.v packed2) (.v mask)),
   .store (.v raw2) 2,
   .set raw3 (.and (.v packed3) (.v mask)),
   .store (.v raw3) 3,
   .set raw4 (.and (.v packed4) (.v mask)),
   .store (.v raw4) 4,
   .set raw5 (.and (.v packed5) (.v mask)),
   .store (.v raw5) 5,
   .set raw6 (.and (.v packed6) (.v mask)),
   .store (.v raw6) 6,
   .set raw8 (.and (.shr 7 (.v packed0)) (.v mask)),
   .store (.v raw8) 8,
   .set raw9 (.and (.shr 7 (.v packed1)) (.v mask)),
   .store (.v raw9) 9,
   .set rawA (.and (.shr 7 (.v packed2)) (.v mask)),
   .store (.v rawA) 10,
   .set rawB (.and (.shr 7 (.v packed3)) (.v mask)),
   .store (.v rawB) 11,
   .set rawC (.and (.shr 7 (.v packed4)) (.v mask)),
   .store (.v rawC) 12,
   .set rawD (.and (.shr 7 (.v packed5)) (.v mask)),
   .store (.v rawD) 13,
   .set rawE (.and (.shr 7 (.v packed6)) (.v mask)),
   .store (.v rawE) 14,
   .set down0 (.shr 14 (.v packed0)),
   .set hi2 (.c 0xC000),
   .set p0 (.xor3 (.shr 12 (.and (.v packed1) (.v hi2))) (.shr 10 (.and (.v packed2) (.v hi2))) (.v down0)),
   .set p1 (.xor3 (.shr 8 (.and (.v packed3) (.v hi2))) (.shr 6 (.and (.v packed4) (.v hi2))) (.shr 4 (.and (.v packed5) (.v hi2)))),
   .set packed7 (.xor3 (.shr 2 (.and (.v packed6) (.v hi2))) (.v p1) (.v p0)),
   .set raw7 (.and (.v packed7) (.v mask)),
   .store (.v raw7) 7,
   .set rawF (.shr 7 (.v packed7)),
   .store (.v rawF) 15]

/-- `Pack16<8>::Pack` (bit_pack-inl.h:1387-1427). -/
def pack16_8_pack : List Stmt :=
  let raw0 := 0; let raw1 := 1; let raw2 := 2; let raw3 := 3; let raw4 := 4; let raw5 := 5; let raw6 := 6; let raw7 := 7
  let raw8 := 8; let raw9 := 9; let rawA := 10; let rawB := 11; let rawC := 12; let rawD := 13; let rawE := 14; let rawF := 15
  let packed0 := 16; let packed1 := 17; let packed2 := 18; let packed3 := 19; let packed4 := 20; let packed5 := 21; let packed6 := 22; let packed7 := 23
  [.load raw0 0,
   .load raw1 1,
   .load raw2 2,
   .load raw3 3,
   .load raw4 4,
   .load raw5 5,
   .load raw6 6,
   .load raw7 7,
   .load raw8 8,
   .load raw9 9,
   .load rawA 10,
   .load rawB 11,
   .load rawC 12,
   .load rawD 13,
   .load rawE 14,
   .load rawF 15,
   .set packed0 (.or (.shl 8 (.v raw2)) (.v raw0)),
   .set packed1 (.or (.shl 8 (.v raw3)) (.v raw1)),
   .set packed2 (.or (.shl 8 (.v raw6)) (.v raw4)),
   .set packed3 (.or (.shl 8 (.v raw7)) (.v raw5)),
   .set packed4 (.or (.shl 8 (.v rawA)) (.v raw8)),
   .set packed5 (.or (.shl 8 (.v rawB)) (.v raw9)),
   .set packed6 (.or (.shl 8 (.v rawE)) (.v rawC)),
   .set packed7 (.or (.shl 8 (.v rawF)) (.v rawD)),
   .store (.v packed0) 0,
   .store (.v packed1) 1,
   .store (.v packed2) 2,
   .store (.v packed3) 3,
   .store (.v packed4) 4,
   .store (.v packed5) 5,
   .store (.v packed6) 6,
   .store (.v packed7) 7]

/-- `Pack16<8>::Unpack` (bit_pack-inl.h:1430-1492). -/
def pack16_8_unpack : List Stmt :=
  let packed0 := 0; let packed1 := 1; let packed2 := 2; let packed3 := 3; let packed4 := 4; let packed5 := 5; let packed6 := 6; let packed7 := 7
  let mask := 8; let raw0 := 9; let raw1 := 10; let raw2 := 11; let raw3 := 12; let raw4 := 13; let raw5 := 14; let raw6 := 15
  let raw7 := 16; let raw8 := 17; let raw9 := 18; let rawA := 19; let rawB := 20; let rawC := 21; let rawD := 22; let rawE := 23
  let rawF := 24
  [.load packed0 0,
   .load packed1 1,
   .load packed2 2,
   .load packed3 3,
   .load packed4 4,
   .load packed5 5,
   .load packed6 6,
   .load packed7 7,
   .set mask (.c 0xFF),
   .set raw0 (.and (.v packed0) (.v mask)),
   .store (.v raw0) 0,
   .set raw1 (.and (.v packed1) (.v mask)),
   .store (.v raw1) 1,
   .set raw2 (.shr 8 (.v packed0)),
   .store (.v raw2) 2,
   .set raw3 (.shr 8 (.v packed1)),
   .store (.v raw3) 3,
   .set raw4 (.and (.v packed2) (.v mask)),
   .store (.v raw4) 4,
   .set raw5 (.and (.v packed3) (.v mask)),
   .store (.v raw5) 5,
   .set raw6 (.shr 8 (.v packed2)),
   .store (.v raw6) 6,
   .set raw7 (.shr 8 (.v packed3)),
   .store (.v raw7) 7,
   .set raw8 (.and (.v packed4) (.v mask)),
   .store (.v raw8) 8,
   .set raw9 (.and (.v packed5) (.v mask)),
   .store (.v raw9) 9,
   .set rawA (.shr 8 (.v packed4)),
   .store (.v rawA) 10,
   .set rawB (.shr 8 (.v packed5)),
   .store (.v rawB) 11,
   .set rawC (.and (.v packed6) (.v mask)),
   .store (.v rawC) 12,
   .set rawD (.and (.v packed7) (.v mask)),
   .store (.v rawD) 13,
   .set rawE (.shr 8 (.v packed6)),
   .store (.v rawE) 14,
   .set rawF (.shr 8 (.v packed7)),
   .store (.v rawF) 15]

/-- `Pack16<9>::Pack` (bit_pack-inl.h:1498-1552). -/
def pack16_9_pack : List Stmt :=
  let raw0 := 0; let raw1 := 1; let raw2 := 2; let raw3 := 3; let raw4 := 4; let raw5 := 5; let raw6 := 6; let raw7 := 7
  let raw8 := 8; let raw9 := 9; let rawA := 10; let rawB := 11; let rawC := 12; let rawD := 13; let rawE := 14; let rawF := 15
  let packed0 := 16; let packed1 := 17; let packed2 := 18; let packed3 := 19; let packed4 := 20; let packed5 := 21; let packed6 := 22; let packed7 := 23
  let mid2 := 24; let part8 := 25; let part9 := 26; let partA := 27; let partB := 28; let partC := 29; let partD := 30; let partE := 31
  let partF := 32; let packed8 := 33
  [.load raw0 0,
   .load raw1 1,
   .load raw2 2,
   .load raw3 3,
   .load raw4 4,
   .load raw5 5,
   .load raw6 6,
   .load raw7 7,
   .load raw8 8,
   .load raw9 9,
   .load rawA 10,
   .load rawB 11,
   .load rawC 12,
   .load rawD 13,
   .load rawE 14,
   .load rawF 15,
   .set packed0 (.or (.shl 9 (.v raw8)) (.v raw0)),
   .set packed1 (.or (.shl 9 (.v raw9)) (.v raw1)),
   .set packed2 (.or (.shl 9 (.v rawA)) (.v raw2)),
   .set packed3 (.or (.shl 9 (.v rawB)) (.v raw3)),
   .set packed4 (.or (.shl 9 (.v rawC)) (.v raw4)),
   .set packed5 (.or (.shl 9 (.v rawD)) (.v raw5)),
   .set packed6 (.or (.shl 9 (.v rawE)) (.v raw6)),
   .set packed7 (.or (.shl 9 (.v rawF)) (.v raw7)),
   .set mid2 (.c 0x180),
   .set part8 (.shr 7 (.and (.v raw8) (.v mid2))),
   .set part9 (.shr 5 (.and (.v raw9) (.v mid2))),
   .set partA (.shr 3 (.and (.v rawA) (.v mid2))),
   .set partB (.shr 1 (.and (.v rawB) (.v mid2))),
   .set partC (.shl 1 (.and (.v rawC) (.v mid2))),
   .set partD (.shl 3 (.and (.v rawD) (.v mid2))),
   .set partE (.shl 5 (.and (.v rawE) (.v mid2))),
   .set partF (.shl 7 (.and (.v rawF) (.v mid2))),
   .set packed8 (.xor3 (.xor3 (.v part8) (.v part9) (.v partA)) (.xor3 (.v partB) (.v partC) (.v partD)) (.or (.v partE) (.v partF))),
   .store (.v packed0) 0,
   .store (.v packed1) 1,
   .store (.v packed2) 2,
   .store (.v packed3) 3,
   .store (.v packed4) 4,
   .store (.v packed5) 5,
   .store (.v packed6) 6,
   .store (.v packed7) 7,
   .store (.v packed8) 8]

/-- `Pack16<9>::Unpack` (bit_pack-inl.h:1555-1622). -/
def pack16_9_unpack : List Stmt :=
  let packed0 := 0; let packed1 := 1; let packed2 := 2; let packed3 := 3; let packed4 := 4; let packed5 := 5; let packed6 := 6; let packed7 := 7
  let packed8 := 8; let mask := 9; let raw0 := 10; let raw1 := 11; let raw2 := 12; let raw3 := 13; let raw4 := 14; let raw5 := 15
  let raw6 := 16; let raw7 := 17; let mid2 := 18; let raw8 := 19; let raw9 := 20; let rawA := 21; let rawB := 22; let rawC := 23
  let rawD := 24; let rawE := 25; let rawF := 26
  [.load packed0 0,
   .load packed1 1,
   .load packed2 2,
   .load packed3 3,
   .load packed4 4,
   .load packed5 5,
   .load packed6 6,
   .load packed7 7,
   .load packed8 8,
   .set mask (.c 0x1FF),
   .set raw0 (.and (.v packed0) (.v mask)),
   .store (.v raw0) 0,
   .set raw1 (.and (.v packed1) (.v mask)),
   .store (.v raw1) 1,
   .set raw2 (.and (.v packed2) (.v mask)),
   .store (.v raw2) 2,
   .set raw3 (.and (.v packed3) (.v mask)),
   .store (.v raw3) 3,
   .set raw4 (.and (.v packed4) (.v mask)),
   .store (.v raw4) 4,
   .set raw5 (.and (.v packed5) (.v mask)),
   .store (.v raw5) 5,
   .set raw6 (.and (.v packed6) (.v mask)),
   .store (.v raw6) 6,
   .set raw7 (.and (.v packed7) (.v mask)),
   .store (.v raw7) 7,
   .set mid2 (.c 0x180),
   .set raw8 (.orAnd (.shr 9 (.v packed0)) (.shl 7 (.v packed8)) (.v mid2)),
   .set raw9 (.orAnd (.shr 9 (.v packed1)) (.shl 5 (.v packed8)) (.v mid2)),
   .set rawA (.orAnd (.shr 9 (.v packed2)) (.shl 3 (.v packed8)) (.v mid2)),
   .set rawB (.orAnd (.shr 9 (.v packed3)) (.shl 1 (.v packed8)) (.v mid2)),
   .set rawC (.orAnd (.shr 9 (.v packed4)) (.shr 1 (.v packed8)) (.v mid2)),
   .set rawD (.orAnd (.shr 9 (.v packed5)) (.shr 3 (.v packed8)) (.v mid2)),
   .set rawE (.orAnd (.shr 9 (.v packed6)) (.shr 5 (.v packed8)) (.v mid2)),
   .set rawF (.orAnd (.shr 9 (.v packed7)) (.shr 7 (.v packed8)) (.v mid2)),
   .store (.v raw8) 8,
   .store (.v raw9) 9,
   .store (.v rawA) 10,
   .store (.v rawB) 11,
   .store (.v rawC) 12,
   .store (.v rawD) 13,
   .store (.v rawE) 14,
   .store (.v rawF) 15]

/-- `Pack16<10>::Pack` (bit_pack-inl.h:1628-1685). -/
def pack16_10_pack : List Stmt :=
  let raw0 := 0; let raw1 := 1; let raw2 := 2; let raw3 := 3; let raw4 := 4; let raw5 := 5; let raw6 := 6; let raw7 := 7
  let raw8 := 8; let raw9 := 9; let rawA := 10; let rawB := 11; let rawC := 12; let rawD := 13; let rawE := 14; let rawF := 15
  let packed0 := 16; let packed1 := 17; let packed2 := 18; let packed3 := 19; let packed4 := 20; let packed5 := 21; let packed6 := 22; let packed7 := 23
  let mid4 := 24; let part8 := 25; let part9 := 26; let partA := 27; let partB := 28; let partC := 29; let partD := 30; let partE := 31
  let partF := 32; let packed8 := 33; let packed9 := 34
  [.load raw0 0,
   .load raw1 1,
   .load raw2 2,
   .load raw3 3,
   .load raw4 4,
   .load raw5 5,
   .load raw6 6,
   .load raw7 7,
   .load raw8 8,
   .load raw9 9,
   .load rawA 10,
   .load rawB 11,
   .load rawC 12,
   .load rawD 13,
   .load rawE 14,
   .load rawF 15,
   .set packed0 (.or (.shl 10 (.v raw8)) (.v raw0)),
   .set packed1 (.or (.shl 10 (.v raw9)) (.v raw1)),
   .set packed2 (.or (.shl 10 (.v rawA)) (.v raw2)),
   .set packed3 (.or (.shl 10 (.v rawB)) (.v raw3)),
   .set packed4 (.or (.shl 10 (.v rawC)) (.v raw4)),
   .set packed5 (.or (.shl 10 (.v rawD)) (.v raw5)),
   .set packed6 (.or (.shl 10 (.v rawE)) (.v raw6)),
   .set packed7 (.or (.shl 10 (.v rawF)) (.v raw7)),
   .set mid4 (.c 0x3C0),
   .set part8 (.shr 6 (.and (.v raw8) (.v mid4))),
   .set part9 (.shr 2 (.and (.v raw9) (.v mid4))),
   .set partA (.shl 2 (.and (.v rawA) (.v mid4))),
   .set partB (.shl 6 (.and (.v rawB) (.v mid4))),
   .set partC (.shr 6 (.and (.v rawC) (.v mid4))),
   .set partD (.shr 2 (.and (.v rawD) (.v mid4))),
   .set partE (.shl 2 (.and (.v rawE) (.v mid4))),
   .set partF (.shl 6 (.and (.v rawF) (.v mid4))),
   .set packed8 (.or (.xor3 (.v part8) (.v part9) (.v partA)) (.v partB)),
   .set packed9 (.or (.xor3 (.v partC) (.v partD) (.v partE)) (.v partF)),
   .store (.v packed0) 0,
   .store (.v packed1) 1,
   .store (.v packed2) 2,
   .store (.v packed3) 3,
   .store (.v packed4) 4,
   .store (.v packed5) 5,
   .store (.v packed6) 6,
   .store (.v packed7) 7,
   .store (.v packed8) 8,
   .store (.v packed9) 9]

/-- `Pack16<10>::Unpack` (bit_pack-inl.h:1688-1756). -/
def pack16_10_unpack : List Stmt :=
  let packed0 := 0; let packed1 := 1; let packed2 := 2; let packed3 := 3; let packed4 := 4; let packed5 := 5; let packed6 := 6; let packed7 := 7
  let packed8 := 8; let packed9 := 9; let mask := 10; let raw0 := 11; let raw1 := 12; let raw2 := 13; let raw3 := 14; let raw4 := 15
  let raw5 := 16; let raw6 := 17; let raw7 := 18; let mid4 := 19; let raw8 := 20; let raw9 := 21; let rawA := 22; let rawB := 23
  let rawC := 24; let rawD := 25; let rawE := 26; let rawF := 27
  [.load packed0 0,
   .load packed1 1,
   .load packed2 2,
   .load packed3 3,
   .load packed4 4,
   .load packed5 5,
   .load packed6 6,
   .load packed7 7,
   .load packed8 8,
   .load packed9 9,
   .set mask (.c 0x3FF),
   .set raw0 (.and (.v packed0) (.v mask)),
   .store (.v raw0) 0,
   .set raw1 (.and (.v packed1) (.v mask)),
   .store (.v raw1) 1,
   .set raw2 (.and (.v packed2) (.v mask)),
   .store (.v raw2) 2,
   .set raw3 (.and (.v packed3) (.v mask)),
   .store (.v raw3) 3,
   .set raw4 (.and (.v packed4) (.v mask)),
   .store (.v raw4) 4,
   .set raw5 (.and (.v packed5) (.v mask)),
   .store (.v raw5) 5,
   .set raw6 (.and (.v packed6) (.v mask)),
   .store (.v raw6) 6,
   .set raw7 (.and (.v packed7) (.v mask)),
   .store (.v raw7) 7,
   .set mid4 (.c 0x3C0),
   .set raw8 (.orAnd (.shr 10 (.v packed0)) (.shl 6 (.v packed8)) (.v mid4)),
   .set raw9 (.orAnd (.shr 10 (.v packed1)) (.shl 2 (.v packed8)) (.v mid4)),
   .set rawA (.orAnd (.shr 10 (.v packed2)) (.shr 2 (.v packed8)) (.v mid4)),
   .set rawB (.orAnd (.shr 10 (.v packed3)) (.shr 6 (.v packed8)) (.v mid4)),
   .set rawC (.orAnd (.shr 10 (.v packed4)) (.shl 6 (.v packed9)) (.v mid4)),
   .set rawD (.orAnd (.shr 10 (.v packed5)) (.shl 2 (.v packed9)) (.v mid4)),
   .set rawE (.orAnd (.shr 10 (.v packed6)) (.shr 2 (.v packed9)) (.v mid4)),
   .set rawF (.orAnd (.shr 10 (.v packed7)) (.shr 6 (.v packed9)) (.v mid4)),
   .store (.v raw8) 8,
   .store (.v raw9) 9,
   .store (.v rawA) 10,
   .store (.v rawB) 11,
   .store (.v rawC) 12,
   .store (.v rawD) 13,
   .store (.v rawE) 14,
   .store (.v rawF) 15]

/-- `Pack16<11>::Pack` (bit_pack-inl.h:1762-1840). -/
def pack16_11_pack : List Stmt :=
  let raw0 := 0; let raw1 := 1; let raw2 := 2; let raw3 := 3; let raw4 := 4; let raw5 := 5; let raw6 := 6; let raw7 := 7
  let raw8 := 8; let raw9 := 9; let rawA := 10; let rawB := 11; let rawC := 12; let rawD := 13; let rawE := 14; let rawF := 15
  let lo8 := 16; let packed0 := 17; let packed1 := 18; let packed2 := 19; let packed3 := 20; let packed4 := 21; let packed5 := 22; let packed6 := 23
  let packed7 := 24; let top0 := 25; let top1 := 26; let top2 := 27; let next := 28; let packed8 := 29; let packed9 := 30; let packedA := 31
  [.load raw0 0,
   .load raw1 1,
   .load raw2 2,
   .load raw3 3,
   .load raw4 4,
   .load raw5 5,
   .load raw6 6,
   .load raw7 7,
   .load raw8 8,
   .load raw9 9,
   .load rawA 10,
   .load rawB 11,
   .load rawC 12,
   .load rawD 13,
   .load rawE 14,
   .load rawF 15,
   .set lo8 (.c 0xFF),
   .set packed0 (.orAnd (.shl 8 (.v raw1)) (.v raw0) (.v lo8)),
   .set packed1 (.orAnd (.shl 8 (.v raw3)) (.v raw2) (.v lo8)),
   .set packed2 (.orAnd (.shl 8 (.v raw5)) (.v raw4) (.v lo8)),
   .set packed3 (.orAnd (.shl 8 (.v raw7)) (.v raw6) (.v lo8)),
   .set packed4 (.orAnd (.shl 8 (.v raw9)) (.v raw8) (.v lo8)),
   .set packed5 (.orAnd (.shl 8 (.v rawB)) (.v rawA) (.v lo8)),
   .set packed6 (.orAnd (.shl 8 (.v rawD)) (.v rawC) (.v lo8)),
   .set packed7 (.orAnd (.shl 8 (.v rawF)) (.v rawE) (.v lo8)),
   .store (.v packed0) 0,
   .store (.v packed1) 1,
   .store (.v packed2) 2,
   .store (.v packed3) 3,
   .store (.v packed4) 4,
   .store (.v packed5) 5,
   .store (.v packed6) 6,
   .store (.v packed7) 7,
   .set top0 (.shr 8 (.v raw0)),
   .set top1 (.shr 8 (.v raw1)),
   .set top2 (.shr 8 (.v raw2)),
   .set next (.c 0x38),
   .set packed8 (.orAnd (.v top0) (.shr 5 (.v raw3)) (.v next)),
   .set packed9 (.orAnd (.v top1) (.shr 5 (.v raw4)) (.v next)),
   .set packedA (.orAnd (.v top2) (.shr 5 (.v raw5)) (.v next)),
   .set next (.shl 3 (.v next)),
   .set packed8 (.orAnd (.v packed8) (.shr 2 (.v raw6)) (.v next)),
   .set packed9 (.orAnd (.v packed9) (.shr 2 (.v raw7)) (.v next)),
   .set packedA (.orAnd (.v packedA) (.shr 2 (.v raw8)) (.v next)),
   .set next (.shl 3 (.v next)),
   .set packed8 (.orAnd (.v packed8) (.add (.v raw9) (.v raw9)) (.v next)),
   .set packed9 (.orAnd (.v packed9) (.add (.v rawA) (.v rawA)) (.v next)),
   .set packedA (.orAnd (.v packedA) (.add (.v rawB) (.v rawB)) (.v next)),
   .set next (.shl 3 (.v next)),
   .set packed8 (.orAnd (.v packed8) (.shl 4 (.v rawC)) (.v next)),
   .set packed9 (.orAnd (.v packed9) (.shl 4 (.v rawD)) (.v next)),
   .set packedA (.orAnd (.v packedA) (.shl 4 (.v rawE)) (.v next)),
   .set next (.shl 3 (.v next)),
   .set packed8 (.orAnd (.v packed8) (.shl 7 (.v rawF)) (.v next)),
   .set packed9 (.orAnd (.v packed9) (.shl 6 (.v rawF)) (.v next)),
   .set packedA (.orAnd (.v packedA) (.shl 5 (.v rawF)) (.v next)),
   .store (.v packed8) 8,
   .store (.v packed9) 9,
   .store (.v packedA) 10]

/-- `Pack16<11>::Unpack` (bit_pack-inl.h:1843-1922). -/
def pack16_11_unpack : List Stmt :=
  let packed0 := 0; let packed1 := 1; let packed2 := 2; let packed3 := 3; let packed4 := 4; let packed5 := 5; let packed6 := 6; let packed7 := 7
  let packed8 := 8; let packed9 := 9; let packedA := 10; let mask := 11; let down0 := 12; let down1 := 13; let down2 := 14; let down3 := 15
  let down4 := 16; let down5 := 17; let down6 := 18; let down7 := 19; let down8 := 20; let down9 := 21; let downA := 22; let downB := 23
  let downC := 24; let downD := 25; let downE := 26; let downF := 27; let hi3 := 28; let raw0 := 29; let raw1 := 30; let raw2 := 31
  let raw3 := 32; let raw4 := 33; let raw5 := 34; let raw6 := 35; let raw7 := 36; let raw8 := 37; let raw9 := 38; let rawA := 39
  let rawB := 40; let rawC := 41; let rawD := 42; let rawE := 43; let rawF := 44
  [.load packed0 0,
   .load packed1 1,
   .load packed2 2,
   .load packed3 3,
   .load packed4 4,
   .load packed5 5,
   .load packed6 6,
   .load packed7 7,
   .load packed8 8,
   .load packed9 9,
   .load packedA 10,
   .set mask (.c 0xFF),
   .set down0 (.and (.v packed0) (.v mask)),
   .set down1 (.shr 8 (.v packed0)),
   .set down2 (.and (.v packed1) (.v mask)),
   .set down3 (.shr 8 (.v packed1)),
   .set down4 (.and (.v packed2) (.v mask)),
   .set down5 (.shr 8 (.v packed2)),
   .set down6 (.and (.v packed3) (.v mask)),
   .set down7 (.shr 8 (.v packed3)),
   .set down8 (.and (.v packed4) (.v mask)),
   .set down9 (.shr 8 (.v packed4)),
   .set downA (.and (.v packed5) (.v mask)),
   .set downB (.shr 8 (.v packed5)),
   .set downC (.and (.v packed6) (.v mask)),
   .set downD (.shr 8 (.v packed6)),
   .set downE (.and (.v packed7) (.v mask)),
   .set downF (.shr 8 (.v packed7)),
   .set hi3 (.c 0x700),
   .set raw0 (.orAnd (.v down0) (.shl 8 (.v packed8)) (.v hi3)),
   .set raw1 (.orAnd (.v down1) (.shl 8 (.v packed9)) (.v hi3)),
   .set raw2 (.orAnd (.v down2) (.shl 8 (.v packedA)) (.v hi3)),
   .set raw3 (.orAnd (.v down3) (.shl 5 (.v packed8)) (.v hi3)),
   .set raw4 (.orAnd (.v down4) (.shl 5 (.v packed9)) (.v hi3)),
   .set raw5 (.orAnd (.v down5) (.shl 5 (.v packedA)) (.v hi3)),
   .set raw6 (.orAnd (.v down6) (.shl 2 (.v packed8)) (.v hi3)),
   .set raw7 (.orAnd (.v down7) (.shl 2 (.v packed9)) (.v hi3)),
   .set raw8 (.orAnd (.v down8) (.shl 2 (.v packedA)) (.v hi3)),
   .set raw9 (.orAnd (.v down9) (.shr 1 (.v packed8)) (.v hi3)),
   .set rawA (.orAnd (.v downA) (.shr 1 (.v packed9)) (.v hi3)),
   .set rawB (.orAnd (.v downB) (.shr 1 (.v packedA)) (.v hi3)),
   .set rawC (.orAnd (.v downC) (.shr 4 (.v packed8)) (.v hi3)),
   .set rawD (.orAnd (.v downD) (.shr 4 (.v packed9)) (.v hi3)),
   .set rawE (.orAnd (.v downE) (.shr 4 (.v packedA)) (.v hi3)),
   .set rawF (.or (.v downF) (.xor3 (.and (.shr 7 (.v packed8)) (.v hi3)) (.and (.shr 6 (.v packed9)) (.v hi3)) (.and (.shr 5 (.v packedA)) (.v hi3)))),
   .store (.v raw0) 0,
   .store (.v raw1) 1,
   .store (.v raw2) 2,
   .store (.v raw3) 3,
   .store (.v raw4) 4,
   .store (.v raw5) 5,
   .store (.v raw6) 6,
   .store (.v raw7) 7,
   .store (.v raw8) 8,
   .store (.v raw9) 9,
   .store (.v rawA) 10,
   .store (.v rawB) 11,
   .store (.v rawC) 12,
   .store (.v rawD) 13,
   .store (.v rawE) 14,
   .store (.v rawF) 15]

/-- `Pack16<12>::Pack` (bit_pack-inl.h:1928-1978). -/
def pack16_12_pack : List Stmt :=
  let raw0 := 0; let raw1 := 1; let raw2 := 2; let raw3 := 3; let raw4 := 4; let raw5 := 5; let raw6 := 6; let raw7 := 7
  let raw8 := 8; let raw9 := 9; let rawA := 10; let rawB := 11; let rawC := 12; let rawD := 13; let rawE := 14; let rawF := 15
  let packed0 := 16; let packed1 := 17; let packed2 := 18; let packed3 := 19; let packed4 := 20; let packed5 := 21; let packed6 := 22; let packed7 := 23
  let hi8 := 24; let packed8 := 25; let packed9 := 26; let packedA := 27; let packedB := 28
  [.load raw0 0,
   .load raw1 1,
   .load raw2 2,
   .load raw3 3,
   .load raw4 4,
   .load raw5 5,
   .load raw6 6,
   .load raw7 7,
   .load raw8 8,
   .load raw9 9,
   .load rawA 10,
   .load rawB 11,
   .load rawC 12,
   .load rawD 13,
   .load rawE 14,
   .load rawF 15,
   .set packed0 (.or (.shl 12 (.v raw8)) (.v raw0)),
   .set packed1 (.or (.shl 12 (.v raw9)) (.v raw1)),
   .set packed2 (.or (.shl 12 (.v rawA)) (.v raw2)),
   .set packed3 (.or (.shl 12 (.v rawB)) (.v raw3)),
   .set packed4 (.or (.shl 12 (.v rawC)) (.v raw4)),
   .set packed5 (.or (.shl 12 (.v rawD)) (.v raw5)),
   .set packed6 (.or (.shl 12 (.v rawE)) (.v raw6)),
   .set packed7 (.or (.shl 12 (.v rawF)) (.v raw7)),
   .set hi8 (.c 0xFF00),
   .set packed8 (.orAnd (.shr 4 (.v raw8)) (.shl 4 (.v raw9)) (.v hi8)),
   .set packed9 (.orAnd (.shr 4 (.v rawA)) (.shl 4 (.v rawB)) (.v hi8)),
   .set packedA (.orAnd (.shr 4 (.v rawC)) (.shl 4 (.v rawD)) (.v hi8)),
   .set packedB (.orAnd (.shr 4 (.v rawE)) (.shl 4 (.v rawF)) (.v hi8)),
   .store (.v packed0) 0,
   .store (.v packed1) 1,
   .store (.v packed2) 2,
   .store (.v packed3) 3,
   .store (.v packed4) 4,
   .store (.v packed5) 5,
   .store (.v packed6) 6,
   .store (.v packed7) 7,
   .store (.v packed8) 8,
   .store (.v packed9) 9,
   .store (.v packedA) 10,
   .store (.v packedB) 11]

/-- `Pack16<12>::Unpack` (bit_pack-inl.h:1981-2050). -/
def pack16_12_unpack : List Stmt :=
  let packed0 := 0; let packed1 := 1; let packed2 := 2; let packed3 := 3; let packed4 := 4; let packed5 := 5; let packed6 := 6; let packed7 := 7
  let packed8 := 8; let packed9 := 9; let packedA := 10; let packedB := 11; let mask := 12; let raw0 := 13; let raw1 := 14; let raw2 := 15
  let raw3 := 16; let raw4 := 17; let raw5 := 18; let raw6 := 19; let raw7 := 20; let mid8 := 21; let raw8 := 22; let raw9 := 23
  let rawA := 24; let rawB := 25; let rawC := 26; let rawD := 27; let rawE := 28; let rawF := 29
  [.load packed0 0,
   .load packed1 1,
   .load packed2 2,
   .load packed3 3,
   .load packed4 4,
   .load packed5 5,
   .load packed6 6,
   .load packed7 7,
   .load packed8 8,
   .load packed9 9,
   .load packedA 10,
   .load packedB 11,
   .set mask (.c 0xFFF),
   .set raw0 (.and (.v packed0) (.v mask)),
   .store (.v raw0) 0,
   .set raw1 (.and (.v packed1) (.v mask)),
   .store (.v raw1) 1,
   .set raw2 (.and (.v packed2) (.v mask)),
   .store (.v raw2) 2,
   .set raw3 (.and (.v packed3) (.v mask)),
   .store (.v raw3) 3,
   .set raw4 (.and (.v packed4) (.v mask)),
   .store (.v raw4) 4,
   .set raw5 (.and (.v packed5) (.v mask)),
   .store (.v raw5) 5,
   .set raw6 (.and (.v packed6) (.v mask)),
   .store (.v raw6) 6,
   .set raw7 (.and (.v packed7) (.v mask)),
   .store (.v raw7) 7,
   .set mid8 (.c 0xFF0),
   .set raw8 (.orAnd (.shr 12 (.v packed0)) (.shl 4 (.v packed8)) (.v mid8)),
   .set raw9 (.orAnd (.shr 12 (.v packed1)) (.shr 4 (.v packed8)) (.v mid8)),
   .set rawA (.orAnd (.shr 12 (.v packed2)) (.shl 4 (.v packed9)) (.v mid8)),
   .set rawB (.orAnd (.shr 12 (.v packed3)) (.shr 4 (.v packed9)) (.v mid8)),
   .set rawC (.orAnd (.shr 12 (.v packed4)) (.shl 4 (.v packedA)) (.v mid8)),
   .set rawD (.orAnd (.shr 12 (.v packed5)) (.shr 4 (.v packedA)) (.v mid8)),
   .set rawE (.orAnd (.shr 12 (.v packed6)) (.shl 4 (.v packedB)) (.v mid8)),
   .set rawF (.orAnd (.shr 12 (.v packed7)) (.shr 4 (.v packedB)) (.v mid8)),
   .store (.v raw8) 8,
   .store (.v raw9) 9,
   .store (.v rawA) 10,
   .store (.v rawB) 11,
   .store (.v rawC) 12,
   .store (.v rawD) 13,
   .store (.v rawE) 14,
   .store (.v rawF) 15]

/-- `Pack16<13>::Pack` (bit_pack-inl.h:2056-2135). -/
def pack16_13_pack : List Stmt :=
  let raw0 := 0; let raw1 := 1; let raw2 := 2; let raw3 := 3; let raw4 := 4; let raw5 := 5; let raw6 := 6; let raw7 := 7
  let raw8 := 8; let raw9 := 9; let rawA := 10; let rawB := 11; let rawC := 12; let rawD := 13; let rawE := 14; let rawF := 15
  let lo8 := 16; let packed0 := 17; let packed1 := 18; let packed2 := 19; let packed3 := 20; let packed4 := 21; let packed5 := 22; let packed6 := 23
  let packed7 := 24; let top0 := 25; let top1 := 26; let top2 := 27; let top3 := 28; let top4 := 29; let next := 30; let packed8 := 31
  let packed9 := 32; let packedA := 33; let packedB := 34; let packedC := 35
  [.load raw0 0,
   .load raw1 1,
   .load raw2 2,
   .load raw3 3,
   .load raw4 4,
   .load raw5 5,
   .load raw6 6,
   .load raw7 7,
   .load raw8 8,
   .load raw9 9,
   .load rawA 10,
   .load rawB 11,
   .load rawC 12,
   .load rawD 13,
   .load rawE 14,
   .load rawF 15,
   .set lo8 (.c 0xFF),
   .set packed0 (.orAnd (.shl 8 (.v raw1)) (.v raw0) (.v lo8)),
   .set packed1 (.orAnd (.shl 8 (.v raw3)) (.v raw2) (.v lo8)),
   .set packed2 (.orAnd (.shl 8 (.v raw5)) (.v raw4) (.v lo8)),
   .set packed3 (.orAnd (.shl 8 (.v raw7)) (.v raw6) (.v lo8)),
   .set packed4 (.orAnd (.shl 8 (.v raw9)) (.v raw8) (.v lo8)),
   .set packed5 (.orAnd (.shl 8 (.v rawB)) (.v rawA) (.v lo8)),
   .set packed6 (.orAnd (.shl 8 (.v rawD)) (.v rawC) (.v lo8)),
   .set packed7 (.orAnd (.shl 8 (.v rawF)) (.v rawE) (.v lo8)),
   .store (.v packed0) 0,
   .store (.v packed1) 1,
   .store (.v packed2) 2,
   .store (.v packed3) 3,
   .store (.v packed4) 4,
   .store (.v packed5) 5,
   .store (.v packed6) 6,
   .store (.v packed7) 7,
   .set top0 (.shr 8 (.v raw0)),
   .set top1 (.shr 8 (.v raw1)),
   .set top2 (.shr 8 (.v raw2)),
   .set top3 (.shr 8 (.v raw3)),
   .set top4 (.shr 8 (.v raw4)),
   .set next (.c 0x3E0),
   .set packed8 (.orAnd (.v top0) (.shr 3 (.v raw5)) (.v next)),
   .set packed9 (.orAnd (.v top1) (.shr 3 (.v raw6)) (.v next)),
   .set packedA (.orAnd (.v top2) (.shr 3 (.v raw7)) (.v next)),
   .set packedB (.orAnd (.v top3) (.shr 3 (.v raw8)) (.v next)),
   .set packedC (.orAnd (.v top4) (.shr 3 (.v raw9)) (.v next)),
   .set next (.shl 5 (.v next)),
   .set packed8 (.orAnd (.v packed8) (.shl 2 (.v rawA)) (.v next)),
   .set packed9 (.orAnd (.v packed9) (.shl 2 (.v rawB)) (.v next)),
   .set packedA (.orAnd (.v packedA) (.shl 2 (.v rawC)) (.v next)),
   .set packedB (.orAnd (.v packedB) (.shl 2 (.v rawD)) (.v next)),
   .set packedC (.orAnd (.v packedC) (.shl 2 (.v rawE)) (.v next)),
   .set next (.shl 3 (.v next)),
   .set packed8 (.orAnd (.v packed8) (.shl 7 (.v rawF)) (.v next)),
   .set packed9 (.orAnd (.v packed9) (.shl 6 (.v rawF)) (.v next)),
   .set packedA (.orAnd (.v packedA) (.shl 5 (.v rawF)) (.v next)),
   .set packedB (.orAnd (.v packedB) (.shl 4 (.v rawF)) (.v next)),
   .set packedC (.orAnd (.v packedC) (.shl 3 (.v rawF)) (.v next)),
   .store (.v packed8) 8,
   .store (.v packed9) 9,
   .store (.v packedA) 10,
   .store (.v packedB) 11,
   .store (.v packedC) 12]

/-- `Pack16<13>::Unpack` (bit_pack-inl.h:2138-2220). -/
def pack16_13_unpack : List Stmt :=
  let packed0 := 0; let packed1 := 1; let packed2 := 2; let packed3 := 3; let packed4 := 4; let packed5 := 5; let packed6 := 6; let packed7 := 7
  let packed8 := 8; let packed9 := 9; let packedA := 10; let packedB := 11; let packedC := 12; let mask := 13; let down0 := 14; let down1 := 15
  let down2 := 16; let down3 := 17; let down4 := 18; let down5 := 19; let down6 := 20; let down7 := 21; let down8 := 22; let down9 := 23
  let downA := 24; let downB := 25; let downC := 26; let downD := 27; let downE := 28; let downF := 29; let hi5 := 30; let raw0 := 31
  let raw1 := 32; let raw2 := 33; let raw3 := 34; let raw4 := 35; let raw5 := 36; let raw6 := 37; let raw7 := 38; let raw8 := 39
  let raw9 := 40; let rawA := 41; let rawB := 42; let rawC := 43; let rawD := 44; let rawE := 45; let p0 := 46; let p1 := 47
  let rawF := 48
  [.load packed0 0,
   .load packed1 1,
   .load packed2 2,
   .load packed3 3,
   .load packed4 4,
   .load packed5 5,
   .load packed6 6,
   .load packed7 7,
   .load packed8 8,
   .load packed9 9,
   .load packedA 10,
   .load packedB 11,
   .load packedC 12,
   .set mask (.c 0xFF),
   .set down0 (.and (.v packed0) (.v mask)),
   .set down1 (.shr 8 (.v packed0)),
   .set down2 (.and (.v packed1) (.v mask)),
   .set down3 (.shr 8 (.v packed1)),
   .set down4 (.and (.v packed2) (.v mask)),
   .set down5 (.shr 8 (.v packed2)),
   .set down6 (.and (.v packed3) (.v mask)),
   .set down7 (.shr 8 (.v packed3)),
   .set down8 (.and (.v packed4) (.v mask)),
   .set down9 (.shr 8 (.v packed4)),
   .set downA (.and (.v packed5) (.v mask)),
   .set downB (.shr 8 (.v packed5)),
   .set downC (.and (.v packed6) (.v mask)),
   .set downD (.shr 8 (.v packed6)),
   .set downE (.and (.v packed7) (.v mask)),
   .set downF (.shr 8 (.v packed7)),
   .set hi5 (.c 0x1F00),
   .set raw0 (.orAnd (.v down0) (.shl 8 (.v packed8)) (.v hi5)),
   .set raw1 (.orAnd (.v down1) (.shl 8 (.v packed9)) (.v hi5)),
   .set raw2 (.orAnd (.v down2) (.shl 8 (.v packedA)) (.v hi5)),
   .set raw3 (.orAnd (.v down3) (.shl 8 (.v packedB)) (.v hi5)),
   .set raw4 (.orAnd (.v down4) (.shl 8 (.v packedC)) (.v hi5)),
   .set raw5 (.orAnd (.v down5) (.shl 3 (.v packed8)) (.v hi5)),
   .set raw6 (.orAnd (.v down6) (.shl 3 (.v packed9)) (.v hi5)),
   .set raw7 (.orAnd (.v down7) (.shl 3 (.v packedA)) (.v hi5)),
   .set raw8 (.orAnd (.v down8) (.shl 3 (.v packed9)) (.v hi5)),
   .set raw9 (.orAnd (.v down9) (.shl 3 (.v packedA)) (.v hi5)),
   .set rawA (.orAnd (.v downA) (.shr 2 (.v packed8)) (.v hi5)),
   .set rawB (.orAnd (.v downB) (.shr 2 (.v packed9)) (.v hi5)),
   .set rawC (.orAnd (.v downC) (.shr 2 (.v packedA)) (.v hi5)),
   .set rawD (.orAnd (.v downD) (.shr 2 (.v packed9)) (.v hi5)),
   .set rawE (.orAnd (.v downE) (.shr 2 (.v packedA)) (.v hi5)),
   .set p0 (.xor3 (.and (.shr 7 (.v packed8)) (.v hi5)) (.and (.shr 6 (.v packed9)) (.v hi5)) (.and (.shr 5 (.v packedA)) (.v hi5))),
   .set p1 (.xor3 (.and (.shr 4 (.v packedB)) (.v hi5)) (.and (.shr 3 (.v packedC)) (.v hi5)) (.v downF)),
   .set rawF (.or (.v p0) (.v p1)),
   .store (.v raw0) 0,
   .store (.v raw1) 1,
   .store (.v raw2) 2,
   .store (.v raw3) 3,
   .store (.v raw4) 4,
   .store (.v raw5) 5,
   .store (.v raw6) 6,
   .store (.v raw7) 7,
   .store (.v raw8) 8,
   .store (.v raw9) 9,
   .store (.v rawA) 10,
   .store (.v rawB) 11,
   .store (.v rawC) 12,
   .store (.v rawD) 13,
   .store (.v rawE) 14,
   .store (.v rawF) 15]

/-- `Pack16<14>::Pack` (bit_pack-inl.h:2226-2279). -/
def pack16_14_pack : List Stmt :=
  let raw0 := 0; let raw1 := 1; let raw2 := 2; let raw3 := 3; let raw4 := 4; let raw5 := 5; let raw6 := 6; let raw7 := 7
  let raw8 := 8; let raw9 := 9; let rawA := 10; let rawB := 11; let rawC := 12; let rawD := 13; let rawE := 14; let rawF := 15
  let hi2 := 16; let packed0 := 17; let packed1 := 18; let packed2 := 19; let packed3 := 20; let packed4 := 21; let packed5 := 22; let packed6 := 23
  let packed7 := 24; let packed8 := 25; let packed9 := 26; let packedA := 27; let packedB := 28; let packedC := 29; let packedD := 30
  [.load raw0 0,
   .load raw1 1,
   .load raw2 2,
   .load raw3 3,
   .load raw4 4,
   .load raw5 5,
   .load raw6 6,
   .load raw7 7,
   .load raw8 8,
   .load raw9 9,
   .load rawA 10,
   .load rawB 11,
   .load rawC 12,
   .load rawD 13,
   .load rawE 14,
   .load rawF 15,
   .set hi2 (.c 0xC000),
   .set packed0 (.or (.v raw0) (.shl 14 (.v rawE))),
   .set packed1 (.orAnd (.v raw1) (.shl 12 (.v rawE)) (.v hi2)),
   .set packed2 (.orAnd (.v raw2) (.shl 10 (.v rawE)) (.v hi2)),
   .set packed3 (.orAnd (.v raw3) (.shl 8 (.v rawE)) (.v hi2)),
   .set packed4 (.orAnd (.v raw4) (.shl 6 (.v rawE)) (.v hi2)),
   .set packed5 (.orAnd (.v raw5) (.shl 4 (.v rawE)) (.v hi2)),
   .set packed6 (.orAnd (.v raw6) (.shl 2 (.v rawE)) (.v hi2)),
   .set packed7 (.or (.v raw7) (.shl 14 (.v rawF))),
   .set packed8 (.orAnd (.v raw8) (.shl 12 (.v rawF)) (.v hi2)),
   .set packed9 (.orAnd (.v raw9) (.shl 10 (.v rawF)) (.v hi2)),
   .set packedA (.orAnd (.v rawA) (.shl 8 (.v rawF)) (.v hi2)),
   .set packedB (.orAnd (.v rawB) (.shl 6 (.v rawF)) (.v hi2)),
   .set packedC (.orAnd (.v rawC) (.shl 4 (.v rawF)) (.v hi2)),
   .set packedD (.orAnd (.v rawD) (.shl 2 (.v rawF)) (.v hi2)),
   .store (.v packed0) 0,
   .store (.v packed1) 1,
   .store (.v packed2) 2,
   .store (.v packed3) 3,
   .store (.v packed4) 4,
   .store (.v packed5) 5,
   .store (.v packed6) 6,
   .store (.v packed7) 7,
   .store (.v packed8) 8,
   .store (.v packed9) 9,
   .store (.v packedA) 10,
   .store (.v packedB) 11,
   .store (.v packedC) 12,
   .store (.v packedD) 13]

/-- `Pack16<14>::Unpack` (bit_pack-inl.h:2282-2363). -/
def pack16_14_unpack : List Stmt :=
  let packed0 := 0; let packed1 := 1; let packed2 := 2; let packed3 := 3; let packed4 := 4; let packed5 := 5; let packed6 := 6; let packed7 := 7
  let packed8 := 8; let packed9 := 9; let packedA := 10; let packedB := 11; let packedC := 12; let packedD := 13; let mask := 14; let raw0 := 15
  let raw1 := 16; let raw2 := 17; let raw3 := 18; let raw4 := 19; let raw5 := 20; let raw6 := 21; let raw7 := 22; let raw8 := 23
  let raw9 := 24; let rawA := 25; let rawB := 26; let rawC := 27; let rawD := 28; let E0 := 29; let E1 := 30; let rawE := 31
  let F0 := 32; let F1 := 33; let rawF := 34
  [.load packed0 0,
   .load packed1 1,
   .load packed2 2,
   .load packed3 3,
   .load packed4 4,
   .load packed5 5,
   .load packed6 6,
   .load packed7 7,
   .load packed8 8,
   .load packed9 9,
   .load packedA 10,
   .load packedB 11,
   .load packedC 12,
   .load packedD 13,
   .set mask (.c 0x3FFF),
   .set raw0 (.and (.v packed0) (.v mask)),
   .store (.v raw0) 0,
   .set raw1 (.and (.v packed1) (.v mask)),
   .store (.v raw1) 1,
   .set raw2 (.and (.v packed2) (.v mask)),
   .store (.v raw2) 2,
   .set raw3 (.and (.v packed3) (.v mask)),
   .store (.v raw3) 3,
   .set raw4 (.and (.v packed4) (.v mask)),
   .store (.v raw4) 4,
   .set raw5 (.and (.v packed5) (.v mask)),
   .store (.v raw5) 5,
   .set raw6 (.and (.v packed6) (.v mask)),
   .store (.v raw6) 6,
   .set raw7 (.and (.v packed7) (.v mask)),
   .store (.v raw7) 7,
   .set raw8 (.and (.v packed8) (.v mask)),
   .store (.v raw8) 8,
   .set raw9 (.and (.v packed9) (.v mask)),
   .store (.v raw9) 9,
   .set rawA (.and (.v packedA) (.v mask)),
   .store (.v rawA) 10,
   .set rawB (.and (.v packedB) (.v mask)),
   .store (.v rawB) 11,
   .set rawC (.and (.v packedC) (.v mask)),
   .store (.v rawC) 12,
   .set rawD (.and (.v packedD) (.v mask)),
   .store (.v rawD) 13,
   .set E0 (.xor3 (.shr 14 (.v packed0)) (.shr 12 (.andNot (.v mask) (.v packed1))) (.shr 10 (.andNot (.v mask) (.v packed2)))),
   .set E1 (.xor3 (.shr 8 (.andNot (.v mask) (.v packed3))) (.shr 6 (.andNot (.v mask) (.v packed4))) (.shr 4 (.andNot (.v mask) (.v packed5)))),
   .set rawE (.xor3 (.shr 2 (.andNot (.v mask) (.v packed6))) (.v E0) (.v E1)),
   .set F0 (.xor3 (.shr 14 (.andNot (.v mask) (.v packed7))) (.shr 12 (.andNot (.v mask) (.v packed8))) (.shr 10 (.andNot (.v mask) (.v packed9)))),
   .set F1 (.xor3 (.shr 8 (.andNot (.v mask) (.v packedA))) (.shr 6 (.andNot (.v mask) (.v packedB))) (.shr 4 (.andNot (.v mask) (.v packedC)))),
   .set rawF (.xor3 (.shr 2 (.andNot (.v mask) (.v packedD))) (.v F0) (.v F1)),
   .store (.v rawE) 14,
   .store (.v rawF) 15]

/-- `Pack16<15>::Pack` (bit_pack-inl.h:2369-2424). -/
def pack16_15_pack : List Stmt :=
  let raw0 := 0; let raw1 := 1; let raw2 := 2; let raw3 := 3; let raw4 := 4; let raw5 := 5; let raw6 := 6; let raw7 := 7
  let raw8 := 8; let raw9 := 9; let rawA := 10; let rawB := 11; let rawC := 12; let rawD := 13; let rawE := 14; let rawF := 15
  let hi1 := 16; let packed0 := 17; let packed1 := 18; let packed2 := 19; let packed3 := 20; let packed4 := 21; let packed5 := 22; let packed6 := 23
  let packed7 := 24; let packed8 := 25; let packed9 := 26; let packedA := 27; let packedB := 28; let packedC := 29; let packedD := 30; let packedE := 31
  [.load raw0 0,
   .load raw1 1,
   .load raw2 2,
   .load raw3 3,
   .load raw4 4,
   .load raw5 5,
   .load raw6 6,
   .load raw7 7,
   .load raw8 8,
   .load raw9 9,
   .load rawA 10,
   .load rawB 11,
   .load rawC 12,
   .load rawD 13,
   .load rawE 14,
   .load rawF 15,
   .set hi1 (.c 0x8000),
   .set packed0 (.or (.v raw0) (.shl 15 (.v rawF))),
   .set packed1 (.orAnd (.v raw1) (.shl 14 (.v rawF)) (.v hi1)),
   .set packed2 (.orAnd (.v raw2) (.shl 13 (.v rawF)) (.v hi1)),
   .set packed3 (.orAnd (.v raw3) (.shl 12 (.v rawF)) (.v hi1)),
   .set packed4 (.orAnd (.v raw4) (.shl 11 (.v rawF)) (.v hi1)),
   .set packed5 (.orAnd (.v raw5) (.shl 10 (.v rawF)) (.v hi1)),
   .set packed6 (.orAnd (.v raw6) (.shl 9 (.v rawF)) (.v hi1)),
   .set packed7 (.orAnd (.v raw7) (.shl 8 (.v rawF)) (.v hi1)),
   .set packed8 (.orAnd (.v raw8) (.shl 7 (.v rawF)) (.v hi1)),
   .set packed9 (.orAnd (.v raw9) (.shl 6 (.v rawF)) (.v hi1)),
   .set packedA (.orAnd (.v rawA) (.shl 5 (.v rawF)) (.v hi1)),
   .set packedB (.orAnd (.v rawB) (.shl 4 (.v rawF)) (.v hi1)),
   .set packedC (.orAnd (.v rawC) (.shl 3 (.v rawF)) (.v hi1)),
   .set packedD (.orAnd (.v rawD) (.shl 2 (.v rawF)) (.v hi1)),
   .set packedE (.orAnd (.v rawE) (.shl 1 (.v rawF)) (.v hi1)),
   .store (.v packed0) 0,
   .store (.v packed1) 1,
   .store (.v packed2) 2,
   .store (.v packed3) 3,
   .store (.v packed4) 4,
   .store (.v packed5) 5,
   .store (.v packed6) 6,
   .store (.v packed7) 7,
   .store (.v packed8) 8,
   .store (.v packed9) 9,
   .store (.v packedA) 10,
   .store (.v packedB) 11,
   .store (.v packedC) 12,
   .store (.v packedD) 13,
   .store (.v packedE) 14]

/-- `Pack16<15>::Unpack` (bit_pack-inl.h:2427-2513). -/
def pack16_15_unpack : List Stmt :=
  let packed0 := 0; let packed1 := 1; let packed2 := 2; let packed3 := 3; let packed4 := 4; let packed5 := 5; let packed6 := 6; let packed7 := 7
  let packed8 := 8; let packed9 := 9; let packedA := 10; let packedB := 11; let packedC := 12; let packedD := 13; let packedE := 14; let mask := 15
  let raw0 := 16; let raw1 := 17; let raw2 := 18; let raw3 := 19; let raw4 := 20; let raw5 := 21; let raw6 := 22; let raw7 := 23
  let raw8 := 24; let raw9 := 25; let rawA := 26; let rawB := 27; let rawC := 28; let rawD := 29; let rawE := 30; let F0 := 31
  let F1 := 32; let F2 := 33; let F3 := 34; let F4 := 35; let rawF := 36
  [.load packed0 0,
   .load packed1 1,
   .load packed2 2,
   .load packed3 3,
   .load packed4 4,
   .load packed5 5,
   .load packed6 6,
   .load packed7 7,
   .load packed8 8,
   .load packed9 9,
   .load packedA 10,
   .load packedB 11,
   .load packedC 12,
   .load packedD 13,
   .load packedE 14,
   .set mask (.c 0x7FFF),
   .set raw0 (.and (.v packed0) (.v mask)),
   .store (.v raw0) 0,
   .set raw1 (.and (.v packed1) (.v mask)),
   .store (.v raw1) 1,
   .set raw2 (.and (.v packed2) (.v mask)),
   .store (.v raw2) 2,
   .set raw3 (.and (.v packed3) (.v mask)),
   .store (.v raw3) 3,
   .set raw4 (.and (.v packed4) (.v mask)),
   .store (.v raw4) 4,
   .set raw5 (.and (.v packed5) (.v mask)),
   .store (.v raw5) 5,
   .set raw6 (.and (.v packed6) (.v mask)),
   .store (.v raw6) 6,
   .set raw7 (.and (.v packed7) (.v mask)),
   .store (.v raw7) 7,
   .set raw8 (.and (.v packed8) (.v mask)),
   .store (.v raw8) 8,
   .set raw9 (.and (.v packed9) (.v mask)),
   .store (.v raw9) 9,
   .set rawA (.and (.v packedA) (.v mask)),
   .store (.v rawA) 10,
   .set rawB (.and (.v packedB) (.v mask)),
   .store (.v rawB) 11,
   .set rawC (.and (.v packedC) (.v mask)),
   .store (.v rawC) 12,
   .set rawD (.and (.v packedD) (.v mask)),
   .store (.v rawD) 13,
   .set rawE (.and (.v packedE) (.v mask)),
   .store (.v rawE) 14,
   .set F0 (.xor3 (.shr 15 (.v packed0)) (.shr 14 (.andNot (.v mask) (.v packed1))) (.shr 13 (.andNot (.v mask) (.v packed2)))),
   .set F1 (.xor3 (.shr 12 (.andNot (.v mask) (.v packed3))) (.shr 11 (.andNot (.v mask) (.v packed4))) (.shr 10 (.andNot (.v mask) (.v packed5)))),
   .set F2 (.xor3 (.shr 9 (.andNot (.v mask) (.v packed6))) (.shr 8 (.andNot (.v mask) (.v packed7))) (.shr 7 (.andNot (.v mask) (.v packed8)))),
   .set F3 (.xor3 (.shr 6 (.andNot (.v mask) (.v packed9))) (.shr 5 (.andNot (.v mask) (.v packedA))) (.shr 4 (.andNot (.v mask) (.v packedB)))),
   .set F4 (.xor3 (.shr 3 (.andNot (.v mask) (.v packedC))) (.shr 2 (.andNot (.v mask) (.v packedD))) (.shr 1 (.andNot (.v mask) (.v packedE)))),
   .set rawF (.xor3 (.v F0) (.v F1) (.xor3 (.v F2) (.v F3) (.v F4))),
   .store (.v rawF) 15]

/-- `Pack16<16>::Pack` (bit_pack-inl.h:2519-2556). -/
def pack16_16_pack : List Stmt :=
  let raw0 := 0; let raw1 := 1; let raw2 := 2; let raw3 := 3; let raw4 := 4; let raw5 := 5; let raw6 := 6; let raw7 := 7
  let raw8 := 8; let raw9 := 9; let rawA := 10; let rawB := 11; let rawC := 12; let rawD := 13; let rawE := 14; let rawF := 15
  [.load raw0 0,
   .load raw1 1,
   .load raw2 2,
   .load raw3 3,
   .load raw4 4,
   .load raw5 5,
   .load raw6 6,
   .load raw7 7,
   .load raw8 8,
   .load raw9 9,
   .load rawA 10,
   .load rawB 11,
   .load rawC 12,
   .load rawD 13,
   .load rawE 14,
   .load rawF 15,
   .store (.v raw0) 0,
   .store (.v raw1) 1,
   .store (.v raw2) 2,
   .store (.v raw3) 3,
   .store (.v raw4) 4,
   .store (.v raw5) 5,
   .store (.v raw6) 6,
   .store (.v raw7) 7,
   .store (.v raw8) 8,
   .store (.v raw9) 9,
   .store (.v rawA) 10,
   .store (.v rawB) 11,
   .store (.v rawC) 12,
   .store (.v rawD) 13,
   .store (.v rawE) 14,
   .store (.v rawF) 15]

/-- `Pack16<16>::Unpack` (bit_pack-inl.h:2559-2597). -/
def pack16_16_unpack : List Stmt :=
  let raw0 := 0; let raw1 := 1; let raw2 := 2; let raw3 := 3; let raw4 := 4; let raw5 := 5; let raw6 := 6; let raw7 := 7
  let raw8 := 8; let raw9 := 9; let rawA := 10; let rawB := 11; let rawC := 12; let rawD := 13; let rawE := 14; let rawF := 15
  [.load raw0 0,
   .load raw1 1,
   .load raw2 2,
   .load raw3 3,
   .load raw4 4,
   .load raw5 5,
   .load raw6 6,
   .load raw7 7,
   .load raw8 8,
   .load raw9 9,
   .load rawA 10,
   .load rawB 11,
   .load rawC 12,
   .load rawD 13,
   .load rawE 14,
   .load rawF 15,
   .store (.v raw0) 0,
   .store (.v raw1) 1,
   .store (.v raw2) 2,
   .store (.v raw3) 3,
   .store (.v raw4) 4,
   .store (.v raw5) 5,
   .store (.v raw6) 6,
   .store (.v raw7) 7,
   .store (.v raw8) 8,
   .store (.v raw9) 9,
   .store (.v rawA) 10,
   .store (.v rawB) 11,
   .store (.v rawC) 12,
   .store (.v rawD) 13,
   .store (.v rawE) 14,
   .store (.v rawF) 15]

/-- `Pack8<kBits>::Pack` by template argument (bit_pack-inl.h). -/
def pack8Pack : Nat → List Stmt
  | 1 => pack8_1_pack
  | 2 => pack8_2_pack
  | 3 => pack8_3_pack
  | 4 => pack8_4_pack
  | 5 => pack8_5_pack
  | 6 => pack8_6_pack
  | 7 => pack8_7_pack
  | 8 => pack8_8_pack
  | _ => []

/-- `Pack8<kBits>::Unpack` by template argument (bit_pack-inl.h). -/
def pack8Unpack : Nat → List Stmt
  | 1 => pack8_1_unpack
  | 2 => pack8_2_unpack
  | 3 => pack8_3_unpack
  | 4 => pack8_4_unpack
  | 5 => pack8_5_unpack
  | 6 => pack8_6_unpack
  | 7 => pack8_7_unpack
  | 8 => pack8_8_unpack
  | _ => []

/-- `Pack16<kBits>::Pack` by template argument (bit_pack-inl.h). -/
def pack16Pack : Nat → List Stmt
  | 1 => pack16_1_pack
  | 2 => pack16_2_pack
  | 3 => pack16_3_pack
  | 4 => pack16_4_pack
  | 5 => pack16_5_pack
  | 6 => pack16_6_pack
  | 7 => pack16_7_pack
  | 8 => pack16_8_pack
  | 9 => pack16_9_pack
  | 10 => pack16_10_pack
  | 11 => pack16_11_pack
  | 12 => pack16_12_pack
  | 13 => pack16_13_pack
  | 14 => pack16_14_pack
  | 15 => pack16_15_pack
  | 16 => pack16_16_pack
  | _ => []

/-- `Pack16<kBits>::Unpack` by template argument (bit_pack-inl.h). -/
def pack16Unpack : Nat → List Stmt
  | 1 => pack16_1_unpack
  | 2 => pack16_2_unpack
  | 3 => pack16_3_unpack
  | 4 => pack16_4_unpack
  | 5 => pack16_5_unpack
  | 6 => pack16_6_unpack
  | 7 => pack16_7_unpack
  | 8 => pack16_8_unpack
  | 9 => pack16_9_unpack
  | 10 => pack16_10_unpack
  | 11 => pack16_11_unpack
  | 12 => pack16_12_unpack
  | 13 => pack16_13_unpack
  | 14 => pack16_14_unpack
  | 15 => pack16_15_unpack
  | 16 => pack16_16_unpack
  | _ => []

end BitPack
end Hwy
