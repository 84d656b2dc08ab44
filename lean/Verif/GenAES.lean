import Verif.EmuArith
import Verif.EmuMove

/-!
# Model of the AES operations of `hwy/ops/generic_ops-inl.h`

The constant-time generic implementation, used by every target without AES instructions, running on
the reference target's operations on full vectors of sixteen bytes.

`Dup128VecFromValues` (emu128-inl.h:170-198) loads its sixteen arguments: a list literal here.
`TableLookupBytes` and `TableLookupBytesOr0` are the same function on the reference target
(emu128-inl.h:2543-2548).
-/

namespace Hwy
namespace Emu
open CInt

/-- `TableLookupBytes(table, indices)` on sixteen bytes (emu128-inl.h:2524-2548). -/
def tlb (v idx : List Int) : M (List Int) := TableLookupBytes 0 16 16 v (idx.map Int.toNat)

/-- `detail::SubBytesMulInverseAndAffineLookup` (generic_ops-inl.h:4189-4228). -/
def SubBytesMulInverseAndAffineLookup (state affineTblL affineTblU : List Int) : M (List Int) := do
  let mask ← Set u8 16 0xF
  let basisL : List Int := [0x00, 0x70, 0x2A, 0x5A, 0x98, 0xE8, 0xB2, 0xC2,
    0x08, 0x78, 0x22, 0x52, 0x90, 0xE0, 0xBA, 0xCA]
  let basisU : List Int := [0x00, 0x4D, 0x7C, 0x31, 0x7D, 0x30, 0x01, 0x4C,
    0x81, 0xCC, 0xFD, 0xB0, 0xFC, 0xB1, 0x80, 0xCD]
  let sL ← And u8 16 state mask
  let sU ← ShiftRight true u8 16 4 state
  let gf4L ← tlb basisL sL
  let gf4U ← tlb basisU sU
  let state ← Xor u8 16 gf4L gf4U
  let zetaInv : List Int := [0x80, 7, 11, 15, 6, 10, 4, 1, 9, 8, 5, 2, 12, 14, 13, 3]
  let tbl : List Int := [0x80, 1, 8, 13, 15, 6, 5, 14, 2, 12, 11, 10, 9, 3, 7, 4]
  let sL ← And u8 16 state mask
  let sU ← ShiftRight true u8 16 4 state
  let sX ← Xor u8 16 sU sL
  let invL ← tlb zetaInv sL
  let invU ← tlb tbl sU
  let invX ← tlb tbl sX
  let outL ← Xor u8 16 sX (← tlb tbl (← Xor u8 16 invL invU))
  let outU ← Xor u8 16 sU (← tlb tbl (← Xor u8 16 invL invX))
  let affL ← tlb affineTblL outL
  let affU ← tlb affineTblU outU
  Xor u8 16 affL affU

/-- `detail::SubBytes` (generic_ops-inl.h:4230-4243). -/
def SubBytes (state : List Int) : M (List Int) := do
  let affineL : List Int := [0x00, 0xC7, 0xBD, 0x6F, 0x17, 0x6D, 0xD2, 0xD0,
    0x78, 0xA8, 0x02, 0xC5, 0x7A, 0xBF, 0xAA, 0x15]
  let affineU : List Int := [0x00, 0x6A, 0xBB, 0x5F, 0xA5, 0x74, 0xE4, 0xCF,
    0xFA, 0x35, 0x2B, 0x41, 0xD1, 0x90, 0x1E, 0x8E]
  Xor u8 16 (← SubBytesMulInverseAndAffineLookup state affineL affineU) (← Set u8 16 0x63)

/-- `detail::InvSubBytes` (generic_ops-inl.h:4245-4269). -/
def InvSubBytes (state : List Int) : M (List Int) := do
  let gF2P4InvToGF2P8InvL : List Int := [0x00, 0x40, 0xF9, 0x7E, 0x53, 0xEA, 0x87, 0x13,
    0x2D, 0x3E, 0x94, 0xD4, 0xB9, 0x6D, 0xAA, 0xC7]
  let gF2P4InvToGF2P8InvU : List Int := [0x00, 0x1D, 0x44, 0x93, 0x0F, 0x56, 0xD7, 0x12,
    0x9C, 0x8E, 0xC5, 0xD8, 0x59, 0x81, 0x4B, 0xCA]
  let b ← Xor u8 16
    (← Xor3 u8 16 (← Or u8 16 (← ShiftLeft u8 16 1 state) (← ShiftRight true u8 16 7 state))
      (← Or u8 16 (← ShiftLeft u8 16 3 state) (← ShiftRight true u8 16 5 state))
      (← Or u8 16 (← ShiftLeft u8 16 6 state) (← ShiftRight true u8 16 2 state)))
    (← Set u8 16 0x05)
  SubBytesMulInverseAndAffineLookup b gF2P4InvToGF2P8InvL gF2P4InvToGF2P8InvU

/-- `detail::ShiftRows` (generic_ops-inl.h:4287-4294). -/
def ShiftRows (state : List Int) : M (List Int) := do
  let shiftRow : List Int := [0, 5, 10, 15, 4, 9, 14, 3, 8, 13, 2, 7, 12, 1, 6, 11]
  tlb state shiftRow

/-- `detail::InvShiftRows` (generic_ops-inl.h:4296-4303). -/
def InvShiftRows (state : List Int) : M (List Int) := do
  let shiftRow : List Int := [0, 13, 10, 7, 4, 1, 14, 11, 8, 5, 2, 15, 12, 9, 6, 3]
  tlb state shiftRow

/-- `detail::GF2P8Mod11BMulBy2` (generic_ops-inl.h:4305-4312). -/
def GF2P8Mod11BMulBy2 (v : List Int) : M (List Int) := do
  let msb ← Lt i8 16 (v.map i8.wrap) (zero i8)
  let overflow := (← IfThenElseZero i8 16 msb (← Set i8 16 0x1B)).map u8.wrap
  Xor u8 16 (← Add u8 16 v v) overflow

/-- `detail::MixColumns` (generic_ops-inl.h:4314-4332). -/
def MixColumns (state : List Int) : M (List Int) := do
  let v2301 : List Int := [2, 3, 0, 1, 6, 7, 4, 5, 10, 11, 8, 9, 14, 15, 12, 13]
  let v1230 : List Int := [1, 2, 3, 0, 5, 6, 7, 4, 9, 10, 11, 8, 13, 14, 15, 12]
  let d ← GF2P8Mod11BMulBy2 state
  let s2301 ← tlb state v2301
  let ds2301 ← Xor u8 16 d s2301
  let ts2301 ← Xor u8 16 state ds2301
  let t1230s3012 ← tlb ts2301 v1230
  Xor u8 16 ds2301 t1230s3012

/-- `detail::InvMixColumns` (generic_ops-inl.h:4334-4359). -/
def InvMixColumns (state : List Int) : M (List Int) := do
  let v2301 : List Int := [2, 3, 0, 1, 6, 7, 4, 5, 10, 11, 8, 9, 14, 15, 12, 13]
  let v1230 : List Int := [1, 2, 3, 0, 5, 6, 7, 4, 9, 10, 11, 8, 13, 14, 15, 12]
  let sx2 ← GF2P8Mod11BMulBy2 state
  let sx4 ← GF2P8Mod11BMulBy2 sx2
  let sx8 ← GF2P8Mod11BMulBy2 sx4
  let sx9 ← Xor u8 16 sx8 state
  let sx11 ← Xor u8 16 sx9 sx2
  let sx13 ← Xor u8 16 sx9 sx4
  let sx14 ← Xor3 u8 16 sx8 sx4 sx2
  let sx13s ← Xor u8 16 sx13 (← tlb sx9 v1230)
  let sx14s ← Xor u8 16 sx14 (← tlb sx11 v1230)
  let sx13r ← tlb sx13s v2301
  Xor u8 16 sx14s sx13r

/-- `AESRound` (generic_ops-inl.h:4363-4372). -/
def AESRound (state roundKey : List Int) : M (List Int) := do
  let state ← SubBytes state
  let state ← ShiftRows state
  let state ← MixColumns state
  Xor u8 16 state roundKey

/-- `AESLastRound` (generic_ops-inl.h:4374-4381). -/
def AESLastRound (state roundKey : List Int) : M (List Int) := do
  let state ← SubBytes state
  let state ← ShiftRows state
  Xor u8 16 state roundKey

/-- `AESInvMixColumns` (generic_ops-inl.h:4383-4386). -/
def AESInvMixColumns (state : List Int) : M (List Int) := InvMixColumns state

/-- `AESRoundInv` (generic_ops-inl.h:4388-4395). -/
def AESRoundInv (state roundKey : List Int) : M (List Int) := do
  let state ← InvSubBytes state
  let state ← InvShiftRows state
  let state ← InvMixColumns state
  Xor u8 16 state roundKey

/-- `AESLastRoundInv` (generic_ops-inl.h:4397-4404). -/
def AESLastRoundInv (state roundKey : List Int) : M (List Int) := do
  let state ← InvSubBytes state
  let state ← InvShiftRows state
  Xor u8 16 state roundKey

/-- `AESKeyGenAssist<kRcon>` (generic_ops-inl.h:4406-4418). -/
def AESKeyGenAssist (kRcon : Int) (v : List Int) : M (List Int) := do
  let rconXorMask : List Int := [0, 0, 0, 0, kRcon, 0, 0, 0, 0, 0, 0, 0, kRcon, 0, 0, 0]
  let rotWordShuffle : List Int := [4, 5, 6, 7, 5, 6, 7, 4, 12, 13, 14, 15, 13, 14, 15, 12]
  let subWord ← SubBytes v
  let rotWord ← tlb subWord rotWordShuffle
  Xor u8 16 rotWord rconXorMask

end Emu
end Hwy
