import Verif.VecOps

/-!
# Model of `hwy/contrib/bit_pack/bit_pack-inl.h`

`Pack8<k>`, `Pack16<k>` are straight-line code: they are represented statement by statement
(`BitPackPrograms.lean`, generated from the source by `tools/bitpack2lean.py`). `Pack32<k>`, `Pack64<k>`
are produced by the recursive template `BitPackUnroller`, modelled by the recursive functions
`unrollPack`, `unrollUnpack` below. `exec` gives the meaning of a statement list on memory.
-/

namespace Hwy
namespace BitPack
open Vec

/-- Vector expressions; all operations are per lane. `v i` is a C++ variable, `c n` is `Set(d, n)`. -/
inductive E
  | v (i : Nat)
  | c (n : Nat)
  | and (a b : E)
  | or (a b : E)
  | andNot (a b : E)
  | xor3 (a b c : E)
  | orAnd (o a b : E)
  | add (a b : E)
  | shl (k : Nat) (a : E)
  | shr (k : Nat) (a : E)
  deriving DecidableEq

/-- C++ statements: `dst = LoadU(d, in + slot * N)`, `dst = e`, `StoreU(e, d, out + slot * N)`. -/
inductive Stmt
  | load (dst slot : Nat)
  | set (dst : Nat) (e : E)
  | store (e : E) (slot : Nat)

/-- Lane semantics of the vector operations (emu128-inl.h:264-336 `And`, `AndNot`, `Xor3`, `OrAnd`,
:490-515 `ShiftLeft`, `ShiftRight`, :574-593 `Add`). -/
def E.eval {w : Nat} (ρ : Nat → BitVec w) : E → BitVec w
  | .v i => ρ i
  | .c n => BitVec.ofNat w n
  | .and a b => a.eval ρ &&& b.eval ρ
  | .or a b => a.eval ρ ||| b.eval ρ
  | .andNot a b => ~~~ a.eval ρ &&& b.eval ρ
  | .xor3 a b e => a.eval ρ ^^^ b.eval ρ ^^^ e.eval ρ
  | .orAnd o a b => o.eval ρ ||| (a.eval ρ &&& b.eval ρ)
  | .add a b => a.eval ρ + b.eval ρ
  | .shl k a => a.eval ρ <<< k
  | .shr k a => a.eval ρ >>> k

/-- `BitCast` between `B`-bit memory elements and `w`-bit lanes: `r` consecutive elements per lane. -/
structure Cast (B w : Nat) where
  r : Nat
  toLane : (Nat → BitVec B) → BitVec w
  ofLane : BitVec w → Nat → BitVec B

/-- No cast (Pack16, Pack32, Pack64, Pack8<8>). -/
def Cast.same (B : Nat) : Cast B B := ⟨1, fun f => f 0, fun v _ => v⟩

/-- `BitCast(d16, u8 vector)`, little-endian (Pack8). -/
def Cast.wide : Cast 8 16 :=
  ⟨2, fun f => f 1 ++ f 0, fun v t => if t = 0 then v.setWidth 8 else (v >>> 8).setWidth 8⟩

def upd {β : Type} (f : Nat → β) (i : Nat) (x : β) : Nat → β := fun j => if j = i then x else f j

/-- Lane `l` of the vector stored at `slot` (vectors of `N` memory elements). -/
def memLane {B w : Nat} (C : Cast B w) (N : Nat) (m : List (BitVec B)) (slot l : Nat) : BitVec w :=
  C.toLane (fun t => m.getD (slot * N + C.r * l + t) 0)

/-- Runs a statement list. `regs q l` is lane `l` of variable `q`. `gin` is applied to each loaded lane
(`Sub(.., frame_of_reference)` when packing with frame of reference, else the identity), `gout` to each
stored lane (`Add(.., frame_of_reference)` when unpacking with frame of reference, else the identity). -/
def exec {B w : Nat} (C : Cast B w) (N : Nat) (gin gout : BitVec w → BitVec w) (inp : List (BitVec B)) :
    List Stmt → (Nat → Nat → BitVec w) → List (BitVec B) → M (List (BitVec B))
  | [], _, out => .ok out
  | .load dst slot :: p, regs, out =>
    if slot * N + N ≤ inp.length then
      exec C N gin gout inp p (upd regs dst (fun l => gin (memLane C N inp slot l))) out
    else .error .ub
  | .set dst e :: p, regs, out =>
    exec C N gin gout inp p (upd regs dst (fun l => e.eval (fun q => regs q l))) out
  | .store e slot :: p, regs, out => do
    let out ← storeU ((List.range N).map (fun i =>
      C.ofLane (gout (e.eval (fun q => regs q (i / C.r)))) (i % C.r))) out (slot * N)
    exec C N gin gout inp p regs out

/-! ### Pack32, Pack64 -/

/-- Variables `in`, `out` of the unrolled code. -/
def rIn : Nat := 0
def rOut : Nat := 1

/-- `BitPackUnroller<T, kBits, S, kLoadPos, kStorePos>::Pack` (bit_pack-inl.h:2622-2664). The recursion of
the template ends when `S == B`; `fuel` bounds it (exhaustion yields an empty program, on which the round
trip check fails). -/
def unrollPack (B kBits : Nat) : Nat → Nat → Nat → Nat → List Stmt
  | 0, _, _, _ => []
  | fuel + 1, S, ld, st =>
    if S ≥ B then
      if S = B then [.store (.v rOut) st]
      else .store (.v rOut) st :: .set rOut (.shr ((kBits - S % B) % B) (.v rIn)) ::
        unrollPack B kBits fuel (S % B) ld (st + 1)
    else
      .load rIn ld ::
        (if S = 0 then .set rOut (.v rIn) else .set rOut (.or (.v rOut) (.shl (S % B) (.v rIn)))) ::
        unrollPack B kBits fuel (S + kBits) (ld + 1) st

/-- `BitPackUnroller<T, kBits, S, kLoadPos, kStorePos>::Unpack` (bit_pack-inl.h:2667-2723). -/
def unrollUnpack (B kBits mask : Nat) : Nat → Nat → Nat → Nat → List Stmt
  | 0, _, _, _ => []
  | fuel + 1, S, ld, st =>
    if S ≥ B then
      if S = B then [.store (.v rOut) st]
      else .load rIn ld ::
        .set rOut (.and (.or (.v rOut) (.shl ((kBits - S % B) % B) (.v rIn))) (.c mask)) ::
        unrollUnpack B kBits mask fuel (S % B) (ld + 1) st
    else
      .store (.v rOut) st ::
        (if S + kBits < B then
          (if S = 0 then .set rOut (.and (.v rIn) (.c mask))
           else .set rOut (.and (.shr (S % B) (.v rIn)) (.c mask)))
         else .set rOut (.shr (S % B) (.v rIn))) ::
        unrollUnpack B kBits mask fuel (S + kBits) ld (st + 1)

/-- `NumLoops`, `PackedIncr`, `UnpackedIncr` (bit_pack-inl.h:2727-2740). -/
def numLoops (kBits : Nat) : Nat := kBits &&& (2 ^ 64 - 1 - (kBits - 1))
def packedIncr (kBits : Nat) : Nat := kBits / numLoops kBits
def unpackedIncr (B kBits : Nat) : Nat := B / numLoops kBits

/-- `MaskBits32`, `MaskBits64` (bit_pack-inl.h:2742-2753). -/
def maskBits (kBits : Nat) : Nat := 2 ^ kBits - 1

/-- Advancing the pointers `raw`, `packed` before each iteration shifts all slots. -/
def Stmt.shift (ld st : Nat) : Stmt → Stmt
  | .load dst s => .load dst (s + ld)
  | .set dst e => .set dst e
  | .store e s => .store e (s + st)

/-- `Pack32<kBits>::Pack`, `Pack64<kBits>::Pack` (bit_pack-inl.h:2757-2777, 2802-2822). -/
def packLoop (B kBits : Nat) : List Stmt :=
  (List.range (numLoops kBits)).flatMap (fun i =>
    .set rIn (.c 0) :: .set rOut (.c 0) ::
    (unrollPack B kBits (4 * B) 0 0 0).map (Stmt.shift (i * unpackedIncr B kBits) (i * packedIncr kBits)))

/-- `Pack32<kBits>::Unpack`, `Pack64<kBits>::Unpack` (bit_pack-inl.h:2779-2799, 2824-2844). -/
def unpackLoop (B kBits : Nat) : List Stmt :=
  (List.range (numLoops kBits)).flatMap (fun i =>
    (.load rIn 0 :: .set rOut (.and (.v rIn) (.c (maskBits kBits))) ::
      unrollUnpack B kBits (maskBits kBits) (4 * B) kBits 1 0).map
      (Stmt.shift (i * packedIncr kBits) (i * unpackedIncr B kBits)))

end BitPack
end Hwy
