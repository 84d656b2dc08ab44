import Verif.Alloc

/-!
# Model of contrib/image/image.h and image.cc

`size_t` is 64 bits: natural numbers below 2^64, wrapping where written `w64`.  Addresses are natural numbers.  Pixel values
are not modelled, except whether a byte was initialised.
-/

namespace Hwy
namespace Img

open Alloc (w64)

/-- `HWY_ALIGNMENT` (aligned_allocator.h:41). -/
def kAlignment : Nat := 128

/-- `DivCeil`, `RoundUpTo` (base.h:2692-2702) for `size_t`; `align` is never zero here. -/
def roundUpTo (what align : Nat) : Nat := w64 (w64 (what + align - 1) / align * align)

/-- `ImageBase::BytesPerRow` (image.cc:35-62); `vec` is the result of `VectorSize()`.  The `HWY_DASSERT`s are
modelled as undefined behaviour. -/
def bytesPerRow (vec xsize sizeofT : Nat) : M Nat := do
  let validBytes := w64 (xsize * sizeofT)
  let validBytes ← if vec ≠ 1 then
      if sizeofT ≤ vec then pure (w64 (validBytes + (vec - sizeofT))) else .error .ub
    else pure validBytes
  let align := max vec kAlignment
  let bytesPerRow := roundUpTo validBytes align
  let bytesPerRow := if bytesPerRow % kAlignment = 0 then w64 (bytesPerRow + align) else bytesPerRow
  if bytesPerRow % align = 0 then pure bytesPerRow else .error .ub

/-- The memory behind an image: the addresses `[base, base + size)`, and which of them were initialised. -/
structure Mem where
  base : Nat
  size : Nat
  init : Nat → Bool

/-- `ZeroBytes` (base.h): undefined behaviour outside of the memory. -/
def zeroBytes (m : Mem) (p n : Nat) : M Mem :=
  if m.base ≤ p ∧ p + n ≤ m.base + m.size then
    .ok { m with init := fun a => m.init a || decide (p ≤ a ∧ a < p + n) }
  else .error .ub

/-- `ImageBase` (image.h:126-129).  `bytes = none`: null. -/
structure Image where
  xsize : Nat := 0
  ysize : Nat := 0
  bytesPerRow : Nat := 0
  bytes : Option Nat := none
deriving DecidableEq

/-- `VoidRow` (image.h:99-108) without the sanitizer check.  `HWY_ASSUME_ALIGNED(row, 64)` is undefined behaviour for
other addresses. -/
def Image.row (im : Image) (y : Nat) : M Nat :=
  match im.bytes with
  | none => .error .ub
  | some p =>
    let row := w64 (p + w64 (y * im.bytesPerRow))
    if row % 64 = 0 then .ok row else .error .ub

/-- `Padding` (image.h:110-118). -/
inductive Padding
  | roundUp
  | unaligned
deriving DecidableEq

/-- The loop of `InitializePadding` (image.cc:107-117). -/
def padRows (im : Image) (valid initSize : Nat) : Nat → Mem → M Mem
  | 0, m => .ok m
  | n + 1, m => do
    let y := im.ysize - (n + 1)
    let row ← im.row y
    let m ← zeroBytes m (row + valid) (initSize - valid)
    padRows im valid initSize n m

/-- `InitializePadding` (image.cc:94-122) as compiled with msan (otherwise it does nothing). -/
def initializePadding (vec : Nat) (im : Image) (sizeofT : Nat) (padding : Padding) (m : Mem) : M Mem :=
  if im.xsize = 0 ∨ im.ysize = 0 then .ok m
  else if vec = 1 then .ok m
  else
    let valid := w64 (im.xsize * sizeofT)
    let initSize := match padding with
      | .roundUp => roundUpTo valid vec
      | .unaligned => w64 (w64 (valid + vec) + (2 ^ 64 - sizeofT))
    if valid = initSize then .ok m
    else padRows im valid initSize im.ysize m

/-- The allocating constructor (image.cc:64-80).  `alloc` is `AllocateAligned<uint8_t>`: null or an address.  Returns the
image and its memory (`none` if nothing was allocated). -/
def construct (vec : Nat) (alloc : Nat → Option Nat) (xsize ysize sizeofT : Nat) : M (Image × Option Mem) :=
  if sizeofT = 1 ∨ sizeofT = 2 ∨ sizeofT = 4 ∨ sizeofT = 8 then
    let im : Image := { xsize := xsize % 2 ^ 32, ysize := ysize % 2 ^ 32 }
    if xsize ≠ 0 ∧ ysize ≠ 0 then do
      let bpr ← bytesPerRow vec xsize sizeofT
      match alloc (w64 (bpr * ysize)) with
      | none => .error .abort
      | some p => do
        let im := { im with bytesPerRow := bpr, bytes := some p }
        let m ← initializePadding vec im sizeofT .roundUp { base := p, size := w64 (bpr * ysize), init := fun _ => false }
        pure (im, some m)
    else pure (im, none)
  else .error .abort

/-- The constructor that references external memory (image.cc:82-92). -/
def constructExternal (vec xsize ysize bpr aligned : Nat) : M Image :=
  if bpr % vec = 0 then
    if aligned % vec = 0 then
      .ok { xsize := xsize % 2 ^ 32, ysize := ysize % 2 ^ 32, bytesPerRow := bpr, bytes := some aligned }
    else .error .abort
  else .error .abort

/-- `ShrinkTo` (image.h:72-77). -/
def Image.shrinkTo (im : Image) (xsize ysize : Nat) : Image :=
  { im with xsize := xsize % 2 ^ 32, ysize := ysize % 2 ^ 32 }

/-- `PixelsPerRow` (image.h:189-191). -/
def Image.pixelsPerRow (im : Image) (sizeofT : Nat) : Nat := im.bytesPerRow / sizeofT

/-! ### Image3 -/

/-- `SameSize` (image.h:390-392). -/
def sameSize (a b : Image) : Bool := a.xsize == b.xsize && a.ysize == b.ysize

/-- `Image3` (image.h:302). -/
structure Image3 where
  plane0 : Image
  plane1 : Image
  plane2 : Image

def Image3.plane (im : Image3) : Fin 3 → Image
  | 0 => im.plane0
  | 1 => im.plane1
  | 2 => im.plane2

/-- The constructor from three planes (image.h:219-230). -/
def Image3.ofPlanes (a b c : Image) : M Image3 :=
  if !sameSize a b || !sameSize a c then .error .abort else .ok ⟨a, b, c⟩

/-- `VoidPlaneRow` (image.h:286-299). -/
def Image3.planeRow (im : Image3) (c : Fin 3) (y : Nat) : M Nat :=
  match (im.plane c).bytes with
  | none => .error .ub
  | some p =>
    let row := w64 (p + w64 (y * im.plane0.bytesPerRow))
    if p % 64 = 0 ∧ row % kAlignment = 0 then .ok row else .error .ub

/-! ### Rect -/

/-- `Rect` (image.h:381-385). -/
structure Rect where
  x0 : Nat
  y0 : Nat
  xsize : Nat
  ysize : Nat
deriving DecidableEq

/-- `Rect::ClampedSize` (image.h:375-379). -/
def clampedSize (begin sizeMax end' : Nat) : Nat :=
  if w64 (begin + sizeMax) ≤ end' then sizeMax else if begin < end' then end' - begin else 0

/-- The clamping constructor (image.h:314-319). -/
def Rect.clamped (xbegin ybegin xsizeMax ysizeMax xend yend : Nat) : Rect where
  x0 := xbegin
  y0 := ybegin
  xsize := clampedSize xbegin xsizeMax xend
  ysize := clampedSize ybegin ysizeMax yend

/-- The constructor covering an image (image.h:327-328). -/
def Rect.ofImage (im : Image) : Rect := ⟨0, 0, im.xsize, im.ysize⟩

/-- `Subrect` (image.h:335-339). -/
def Rect.subrect (r : Rect) (xbegin ybegin xsizeMax ysizeMax : Nat) : Rect :=
  .clamped (w64 (r.x0 + xbegin)) (w64 (r.y0 + ybegin)) xsizeMax ysizeMax (w64 (r.x0 + r.xsize)) (w64 (r.y0 + r.ysize))

/-- `IsInside` (image.h:364-366). -/
def Rect.isInside (r : Rect) (im : Image) : Bool :=
  decide (w64 (r.x0 + r.xsize) ≤ im.xsize) && decide (w64 (r.y0 + r.ysize) ≤ im.ysize)

/-- `Rect::ConstRow`, `MutableRow` (image.h:342-349): the address. -/
def Rect.row (r : Rect) (im : Image) (sizeofT y : Nat) : M Nat := do
  let p ← im.row (w64 (y + r.y0))
  pure (p + r.x0 * sizeofT)

/-! ### Wrapping coordinates -/

/-- An `int64_t` result; overflow is undefined behaviour. -/
def i64 (x : Int) : M Int := if -2 ^ 63 ≤ x ∧ x < 2 ^ 63 then .ok x else .error .ub

/-- The body of the loop of `Mirror` (image.h:404-408). -/
def mirrorStep (xsize x : Int) : M Int :=
  if x < 0 then do
    let n ← i64 (-x)
    i64 (n - 1)
  else do
    let d ← i64 (2 * xsize)
    let d ← i64 (d - 1)
    i64 (d - x)

/-- `Mirror` (image.h:398-411).  The loop is a relation: `Mirror xsize x r` holds if the loop ends with outcome `r`. -/
inductive Mirror (xsize : Int) : Int → M Nat → Prop
  | done {x : Int} : 0 ≤ x → x < xsize → Mirror xsize x (.ok x.toNat)
  | step {x x' : Int} {r : M Nat} : (x < 0 ∨ xsize ≤ x) → mirrorStep xsize x = .ok x' → Mirror xsize x' r → Mirror xsize x r
  | fault {x : Int} {f : Fault} : (x < 0 ∨ xsize ≤ x) → mirrorStep xsize x = .error f → Mirror xsize x (.error f)

/-- `WrapRowMirror` (image.h:432-456): pointers are positions in floats. -/
structure WrapRowMirror where
  firstRow : Int
  lastRow : Int

/-- Its constructor (image.h:434-436), for a view whose row `y` is at `first + y * stride`. -/
def WrapRowMirror.make (rowAt : Nat → Int) (ysize : Nat) : WrapRowMirror := ⟨rowAt 0, rowAt (ysize - 1)⟩

/-- Its call operator (image.h:438-451). -/
def WrapRowMirror.call (w : WrapRowMirror) (row stride : Int) : Int :=
  if row < w.firstRow then w.firstRow + (w.firstRow - row) - stride
  else if row > w.lastRow then w.lastRow - (row - w.lastRow) + stride
  else row

end Img
end Hwy
