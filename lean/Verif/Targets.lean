import Verif.BitSet

/-!
# Model of dynamic dispatch: hwy/targets.h, hwy/targets.cc, hwy/highway.h, hwy/detect_targets.h

Masks (`int64_t`) are `BitVec 64`; a target is the index of its bit.  A dispatch table is the list of its
entries.  Calling a null entry is undefined behaviour.
-/

namespace Hwy
namespace Tgt

abbrev Mask := BitVec 64

/-- Architectures with their own table layout (targets.h:205-306); PPC also stands for S390X. -/
inductive Arch
  | x86 | arm | riscv | ppc | wasm | loongarch
deriving DecidableEq, Repr

/-- `HWY_MAX_DYNAMIC_TARGETS` (targets.h:208, 234, 255, 270, 285, 299). -/
def maxDyn : Arch → Nat
  | .x86 => 15 | .arm => 15 | .riscv => 9 | .ppc => 9 | .wasm => 9 | .loongarch => 3

/-- `HWY_HIGHEST_TARGET_BIT` (detect_targets.h:85, 99, 108, 126, 135, 114). -/
def highest : Arch → Nat
  | .x86 => 14 | .arm => 29 | .riscv => 38 | .ppc => 51 | .wasm => 60 | .loongarch => 41

/-! Target bits (detect_targets.h:63-141). -/
def AVX10_2_512 := 3
def AVX3_SPR := 4
def AVX10_2 := 5
def AVX3_ZEN4 := 6
def AVX3_DL := 7
def AVX3 := 8
def AVX2 := 9
def SSE4 := 11
def SSSE3 := 12
def SSE2 := 14
def SVE2_128 := 18
def SVE_256 := 19
def SVE2 := 23
def SVE := 24
def NEON_BF16 := 26
def NEON := 28
def NEON_WITHOUT_AES := 29
def RVV := 37
def LASX := 40
def LSX := 41
def PPC10 := 47
def PPC9 := 48
def PPC8 := 49
def Z15 := 50
def Z14 := 51
def WASM_EMU256 := 58
def WASM := 59
def EMU128 := 61
def SCALAR := 62

/-- `HWY_CHOOSE_TARGET_LIST` (targets.h:215-231, 236-252, 257-267, 272-282, 287-297, 301-304): the target named by each
entry, `none` for `nullptr`. -/
def chooseList : Arch → List (Option Nat)
  | .x86 => [none, none, none, some AVX10_2_512, some AVX3_SPR, some AVX10_2, some AVX3_ZEN4, some AVX3_DL,
             some AVX3, some AVX2, none, some SSE4, some SSSE3, none, some SSE2]
  | .arm => [none, none, none, some SVE2_128, some SVE_256, none, none, none, some SVE2, some SVE, none,
             some NEON_BF16, none, some NEON, some NEON_WITHOUT_AES]
  | .riscv => [none, none, none, none, none, none, none, some RVV, none]
  | .ppc => [none, none, none, none, some PPC10, some PPC9, some PPC8, some Z15, some Z14]
  | .wasm => [none, none, none, none, none, none, some WASM_EMU256, some WASM, none]
  | .loongarch => [none, some LASX, some LSX]

/-- What one translation unit was compiled with: `HWY_TARGETS` and `HWY_STATIC_TARGET`. -/
structure Unit' where
  compiled : Mask
  static : Nat
deriving DecidableEq

/-- An entry of a dispatch table. -/
inductive Entry
  | chooser            -- `FunctionCache::[Table]ChooseAndCall`
  | null
  | fn (target : Nat)  -- the function compiled for that target
deriving DecidableEq, Repr

/-- `HWY_CHOOSE_*` (highway.h:147-307): null if the target was not compiled. -/
def choose (u : Unit') : Option Nat → Entry
  | none => .null
  | some b => if u.compiled.getLsbD b then .fn b else .null

/-- `HWY_CHOOSE_FALLBACK` (highway.h:137-145). -/
def fallback (u : Unit') : Nat :=
  if u.compiled.getLsbD EMU128 then EMU128
  else if u.compiled.getLsbD SCALAR then SCALAR
  else u.static

/-- The table made by `HWY_EXPORT[_T]` (highway.h:504-560). -/
def table (a : Arch) (u : Unit') : List Entry :=
  [.chooser] ++ (chooseList a).map (choose u) ++ [.fn (fallback u)]

/-- `HWY_CHOSEN_TARGET_SHIFT` (targets.h:196-199). -/
def chosenShift (a : Arch) (x : Mask) : Mask :=
  ((x.sshiftRight (highest a + 1 - maxDyn a)) &&& ((1#64 <<< maxDyn a) - 1#64)) <<< 1

/-- `HWY_CHOSEN_TARGET_MASK_SCALAR` (targets.h:192). -/
def maskScalar (a : Arch) : Mask := 1#64 <<< (maxDyn a + 1)

/-- `HWY_CHOSEN_TARGET_MASK_TARGETS` (targets.h:202-203). -/
def maskTargets (a : Arch) (u : Unit') : Mask := chosenShift a u.compiled ||| maskScalar a ||| 1#64

/-- `ChosenTarget::mask_`, `supported_targets_for_test_`, `supported_mask_` (targets.h:347-357, targets.cc:766, 769). -/
structure St where
  mask : Mask
  test : Mask
  supMask : Mask
deriving DecidableEq

/-- Static initialisers (targets.h:351, 356, targets.cc:766, 769). -/
def init : St := ⟨1, 0, 0x7FFFFFFFFFFFFFFF#64⟩

/-- `ChosenTarget::Update` (targets.h:322-326). -/
def updateMask (a : Arch) (targets : Mask) : Mask := chosenShift a targets ||| maskScalar a

/-- `DisableTargets` (targets.cc:771-780). -/
def disableTargets (s : St) (disabled : Mask) : St := { s with supMask := ~~~disabled, mask := 1 }

/-- `SetSupportedTargetsForTest` (targets.cc:781-784). -/
def setSupportedTargetsForTest (s : St) (targets : Mask) : St := { s with test := targets, mask := 1 }

/-- `SupportedTargets` (targets.cc:786-803).  `det` is what `DetectTargets()` returns at this time, `lib` the
`HWY_STATIC_TARGET` of targets.cc. -/
def supportedTargets (a : Arch) (lib : Nat) (det : Mask) (s : St) : St × Mask :=
  let (s, targets) := if s.test = 0 then ({ s with mask := updateMask a det }, det) else (s, s.test)
  let targets := targets &&& s.supMask
  (s, if targets = 0 then 1#64 <<< lib else targets)

/-- `ChosenTarget::GetIndex` in a translation unit `u` (targets.h:341-344). -/
def getIndex (a : Arch) (u : Unit') (mask : Mask) : M Nat :=
  num0BitsBelowLS1Bit_Nonzero64 (mask &&& maskTargets a u)

/-- `TableChooseAndCall` (highway.h:359-364, 368-373): the target called. -/
def chooseAndCall (a : Arch) (lib : Nat) (u : Unit') (det : Mask) (s : St) : M (St × Nat) := do
  let (s, t) := supportedTargets a lib det s
  let s := { s with mask := updateMask a t }
  let i ← getIndex a u s.mask
  match ← readAt (table a u) i with
  | .fn b => return (s, b)
  | _ => .error .ub

/-- A call of `HWY_DYNAMIC_DISPATCH(f)` (highway.h:566-570). -/
def dispatch (a : Arch) (lib : Nat) (u : Unit') (det : Mask) (s : St) : M (St × Nat) := do
  let i ← getIndex a u s.mask
  match ← readAt (table a u) i with
  | .fn b => return (s, b)
  | .null => .error .ub
  | .chooser => chooseAndCall a lib u det s

/-- Calls by the program. -/
inductive Op
  | disable (targets : Mask)
  | setTest (targets : Mask)
  | deInit
  | supported (det : Mask)
  | dispatch (u : Unit') (det : Mask)

/-- Run one call; dispatching also yields the target called. -/
def Op.run (a : Arch) (lib : Nat) : Op → St → M (St × Option Nat)
  | .disable t, s => .ok (disableTargets s t, none)
  | .setTest t, s => .ok (setSupportedTargetsForTest s t, none)
  | .deInit, s => .ok ({ s with mask := 1 }, none)
  | .supported det, s => .ok ((supportedTargets a lib det s).1, none)
  | .dispatch u det, s => do
    let (s, b) ← Tgt.dispatch a lib u det s
    return (s, some b)

/-- Run a history from a state. -/
def run (a : Arch) (lib : Nat) : List Op → St → M (St × List (Option Nat))
  | [], s => .ok (s, [])
  | op :: ops, s => do
    let (s, r) ← op.run a lib s
    let (s, rs) ← run a lib ops s
    return (s, r :: rs)

/-! ## Concurrent dispatch

`mask_` is a sequentially consistent atomic; the two other globals are only written before threads start
(targets.cc:764-765), so they are constants here.  Every load and store of the mask is one step. -/

/-- What is fixed while threads dispatch. -/
structure Env where
  arch : Arch
  lib : Nat
  test : Mask
  supMask : Mask
  det : Nat → Mask       -- what `DetectTargets()` returns on that thread
  unit : Nat → Unit'     -- the translation unit whose function the thread calls

/-- The value returned by `SupportedTargets` on a thread (targets.cc:787-805). -/
def Env.ret (e : Env) (t : Nat) : Mask :=
  (supportedTargets e.arch e.lib (e.det t) ⟨1, e.test, e.supMask⟩).2

/-- Program counter of a thread inside `HWY_DYNAMIC_DISPATCH`. -/
inductive Pc
  | idle             -- before evaluating `GetChosenTarget().GetIndex()`
  | inSupported      -- in `SupportedTargets`, before its `Update` (targets.cc:800)
  | beforeUpdate     -- `SupportedTargets` returned, before `Update` (highway.h:362)
  | beforeIndex      -- before `GetIndex` (highway.h:363)
deriving DecidableEq, Repr

/-- Shared mask, program counters, and the calls made so far (thread, entry), newest first. -/
structure CSt where
  mask : Mask
  pc : Nat → Pc
  calls : List (Nat × Entry)

def cinit : CSt := ⟨1, fun _ => .idle, []⟩

def setPc (pc : Nat → Pc) (t : Nat) (p : Pc) : Nat → Pc := fun t' => if t' = t then p else pc t'

/-- One step of thread `t` (highway.h:359-364, 566-570; targets.cc:787-805).  Entering the chooser is not
recorded as a call unless it happens at `beforeIndex`, where it would be unbounded recursion. -/
def cstep (e : Env) (t : Nat) (s : CSt) : M CSt := do
  match s.pc t with
  | .idle =>
    let i ← getIndex e.arch (e.unit t) s.mask
    match ← readAt (table e.arch (e.unit t)) i with
    | .chooser => return { s with pc := setPc s.pc t (if e.test = 0 then .inSupported else .beforeUpdate) }
    | f => return { s with calls := (t, f) :: s.calls }
  | .inSupported =>
    return { s with mask := updateMask e.arch (e.det t), pc := setPc s.pc t .beforeUpdate }
  | .beforeUpdate =>
    return { s with mask := updateMask e.arch (e.ret t), pc := setPc s.pc t .beforeIndex }
  | .beforeIndex =>
    let i ← getIndex e.arch (e.unit t) s.mask
    let f ← readAt (table e.arch (e.unit t)) i
    return { s with pc := setPc s.pc t .idle, calls := (t, f) :: s.calls }

/-- Run a schedule (the thread that takes each step). -/
def crun (e : Env) : List Nat → CSt → M CSt
  | [], s => .ok s
  | t :: ts, s => do
    let s ← cstep e t s
    crun e ts s

/-! ## x86 detection (targets.cc:116-439, x86_cpuid.h) -/

/-- `FeatureIndex` (targets.cc:134-174), in the same order. -/
inductive Feature
  | SSE | SSE2 | SSE3 | SSSE3 | SSE41 | SSE42 | CLMUL | AES | AVX | AVX2 | F16C | FMA | LZCNT | BMI | BMI2
  | AVX512F | AVX512VL | AVX512CD | AVX512DQ | AVX512BW | AVX512FP16 | AVX512BF16
  | VNNI | VPCLMULQDQ | VBMI | VBMI2 | VAES | POPCNTDQ | BITALG | GFNI | AVX10 | APX
deriving DecidableEq, Repr

/-- `Bit` (targets.cc:178-180). -/
def Feature.bit (f : Feature) : BitVec 64 := 1#64 <<< f.ctorIdx

/-- The registers returned by `Cpuid` (x86_cpuid.h:35-57). -/
structure Regs where
  a : BitVec 32
  b : BitVec 32
  c : BitVec 32
  d : BitVec 32
deriving DecidableEq

/-- The machine: `Cpuid(level, count)`, `ReadXCR0()` (targets.cc:117-130). -/
structure Cpu where
  cpuid : Nat → Nat → Regs
  xcr0 : BitVec 32

/-- Build configuration: 64-bit, `HWY_DISABLE_BMI2_FMA`, `HWY_DISABLE_F16C`, and on Apple the answer of
`IsMacOs12_2OrLater() && HasCpuFeature("hw.optional.avx512f")`. -/
structure Cfg where
  x64 : Bool
  noBmi2Fma : Bool
  noF16C : Bool
  apple : Option Bool

/-- `IsBitSet` (x86_cpuid.h:59-61). -/
def isBitSet (reg : BitVec 32) (index : Nat) : Bool := (reg &&& (1#32 <<< index)) != 0#32

/-- `flags |= IsBitSet(..) ? Bit(..) : 0`. -/
def flagIf (c : Bool) (f : Feature) : BitVec 64 := if c then f.bit else 0

/-- `FlagsFromCPUID` (targets.cc:183-238). -/
def flagsFromCPUID (m : Cpu) : BitVec 64 :=
  let maxLevel := (m.cpuid 0 0).a
  let r := m.cpuid 1 0
  let flags := 0#64
  let flags := flags ||| flagIf (isBitSet r.d 25) .SSE
  let flags := flags ||| flagIf (isBitSet r.d 26) .SSE2
  let flags := flags ||| flagIf (isBitSet r.c 0) .SSE3
  let flags := flags ||| flagIf (isBitSet r.c 1) .CLMUL
  let flags := flags ||| flagIf (isBitSet r.c 9) .SSSE3
  let flags := flags ||| flagIf (isBitSet r.c 12) .FMA
  let flags := flags ||| flagIf (isBitSet r.c 19) .SSE41
  let flags := flags ||| flagIf (isBitSet r.c 20) .SSE42
  let flags := flags ||| flagIf (isBitSet r.c 25) .AES
  let flags := flags ||| flagIf (isBitSet r.c 28) .AVX
  let flags := flags ||| flagIf (isBitSet r.c 29) .F16C
  let r := m.cpuid 0x80000001 0
  let flags := flags ||| flagIf (isBitSet r.c 5) .LZCNT
  if 7#32 ≤ maxLevel then
    let r := m.cpuid 7 0
    let flags := flags ||| flagIf (isBitSet r.b 3) .BMI
    let flags := flags ||| flagIf (isBitSet r.b 5) .AVX2
    let flags := flags ||| flagIf (isBitSet r.b 8) .BMI2
    let flags := flags ||| flagIf (isBitSet r.b 16) .AVX512F
    let flags := flags ||| flagIf (isBitSet r.b 17) .AVX512DQ
    let flags := flags ||| flagIf (isBitSet r.b 28) .AVX512CD
    let flags := flags ||| flagIf (isBitSet r.b 30) .AVX512BW
    let flags := flags ||| flagIf (isBitSet r.b 31) .AVX512VL
    let flags := flags ||| flagIf (isBitSet r.c 1) .VBMI
    let flags := flags ||| flagIf (isBitSet r.c 6) .VBMI2
    let flags := flags ||| flagIf (isBitSet r.c 8) .GFNI
    let flags := flags ||| flagIf (isBitSet r.c 9) .VAES
    let flags := flags ||| flagIf (isBitSet r.c 10) .VPCLMULQDQ
    let flags := flags ||| flagIf (isBitSet r.c 11) .VNNI
    let flags := flags ||| flagIf (isBitSet r.c 12) .BITALG
    let flags := flags ||| flagIf (isBitSet r.c 14) .POPCNTDQ
    let flags := flags ||| flagIf (isBitSet r.d 23) .AVX512FP16
    let r := m.cpuid 7 1
    let flags := flags ||| flagIf (isBitSet r.a 5) .AVX512BF16
    let flags := flags ||| flagIf (isBitSet r.d 19) .AVX10
    let flags := flags ||| flagIf (isBitSet r.d 21) .APX
    flags
  else flags

/-! Groups (targets.cc:240-293). -/
def groupSSE2 : BitVec 64 := Feature.SSE.bit ||| Feature.SSE2.bit
def groupSSSE3 : BitVec 64 := Feature.SSE3.bit ||| Feature.SSSE3.bit ||| groupSSE2
def groupSSE4 : BitVec 64 :=
  Feature.SSE41.bit ||| Feature.SSE42.bit ||| Feature.CLMUL.bit ||| Feature.AES.bit ||| groupSSSE3
def groupBMI2_FMA (cfg : Cfg) : BitVec 64 :=
  if cfg.noBmi2Fma then 0 else Feature.BMI.bit ||| Feature.BMI2.bit ||| Feature.FMA.bit
def groupF16C (cfg : Cfg) : BitVec 64 := if cfg.noF16C then 0 else Feature.F16C.bit
def groupAVX2 (cfg : Cfg) : BitVec 64 :=
  Feature.AVX.bit ||| Feature.AVX2.bit ||| Feature.LZCNT.bit ||| groupBMI2_FMA cfg ||| groupF16C cfg ||| groupSSE4
def groupAVX3 (cfg : Cfg) : BitVec 64 :=
  Feature.AVX512F.bit ||| Feature.AVX512VL.bit ||| Feature.AVX512DQ.bit ||| Feature.AVX512BW.bit |||
    Feature.AVX512CD.bit ||| groupAVX2 cfg
def groupAVX3_DL (cfg : Cfg) : BitVec 64 :=
  Feature.VNNI.bit ||| Feature.VPCLMULQDQ.bit ||| Feature.VBMI.bit ||| Feature.VBMI2.bit ||| Feature.VAES.bit |||
    Feature.POPCNTDQ.bit ||| Feature.BITALG.bit ||| Feature.GFNI.bit ||| groupAVX3 cfg
def groupAVX3_ZEN4 (cfg : Cfg) : BitVec 64 := Feature.AVX512BF16.bit ||| groupAVX3_DL cfg
def groupAVX3_SPR (cfg : Cfg) : BitVec 64 := Feature.AVX512FP16.bit ||| groupAVX3_ZEN4 cfg
def groupAVX10 (cfg : Cfg) : BitVec 64 :=
  Feature.AVX10.bit ||| Feature.APX.bit ||| Feature.VPCLMULQDQ.bit ||| Feature.VAES.bit ||| Feature.GFNI.bit |||
    groupAVX2 cfg

/-- `HWY_<target>` as a mask. -/
def tbit (b : Nat) : Mask := 1#64 <<< b

/-- `IsAMD` (x86_cpuid.h:69-76). -/
def isAMD (m : Cpu) : Bool :=
  let r := m.cpuid 0 0
  1#32 ≤ r.a && r.b == 0x68747541#32 && r.c == 0x444d4163#32 && r.d == 0x69746e65#32

/-- `if ((flags & group) == group) bits |= target;`. -/
def addIf (flags group : BitVec 64) (t : Mask) (bits : Mask) : Mask :=
  if flags &&& group = group then bits ||| t else bits

/-- The AVX10 part of `DetectTargets` (targets.cc:328-353). -/
def detectAvx10 (cfg : Cfg) (m : Cpu) (flags : BitVec 64) (bits : Mask) : Mask :=
  if flags &&& groupAVX10 cfg = groupAVX10 cfg then
    let b := (m.cpuid 0x24 0).b
    let ver := b &&& 0xFF#32
    let has512 := decide (1#32 ≤ ver) && isBitSet b 18
    let bits := if has512 then bits ||| (tbit AVX3_SPR ||| tbit AVX3_DL ||| tbit AVX3) else bits
    if 2#32 ≤ ver then
      let bits := bits ||| tbit AVX10_2
      if has512 then bits ||| tbit AVX10_2_512 else bits
    else bits
  else bits

/-- `have_avx3_xsave_support` (targets.cc:403-404, 418-419). -/
def haveAvx3Xsave (cfg : Cfg) (m : Cpu) : Bool :=
  match cfg.apple with
  | some b => b
  | none => isBitSet m.xcr0 5 && isBitSet m.xcr0 6 && isBitSet m.xcr0 7

/-- Clearing targets whose registers the OS does not preserve (targets.cc:373-429). -/
def clearUnpreserved (cfg : Cfg) (m : Cpu) (bits : Mask) : Mask :=
  let r := m.cpuid 1 0
  let minAvx2 := tbit AVX2 ||| (tbit AVX2 - 1#64)
  if isBitSet r.c 26 && isBitSet r.c 27 then
    let minAvx3 := tbit AVX3 ||| tbit AVX3_DL ||| tbit AVX3_SPR
    let bits := if !isBitSet m.xcr0 1 || !isBitSet m.xcr0 2 then bits &&& ~~~minAvx2 else bits
    if !haveAvx3Xsave cfg m then bits &&& ~~~minAvx3 else bits
  else bits &&& ~~~minAvx2

/-- `x86::DetectTargets` (targets.cc:295-439). -/
def detectX86 (cfg : Cfg) (m : Cpu) : Mask :=
  let bits := if cfg.x64 then 0 ||| tbit SSE2 else 0
  let flags := flagsFromCPUID m
  let bits := addIf flags (groupAVX3_SPR cfg) (tbit AVX3_SPR) bits
  let bits := addIf flags (groupAVX3_DL cfg) (tbit AVX3_DL) bits
  let bits := addIf flags (groupAVX3 cfg) (tbit AVX3) bits
  let bits := addIf flags (groupAVX2 cfg) (tbit AVX2) bits
  let bits := addIf flags groupSSE4 (tbit SSE4) bits
  let bits := addIf flags groupSSSE3 (tbit SSSE3) bits
  let bits := if !cfg.x64 then addIf flags groupSSE2 (tbit SSE2) bits else bits
  let bits := detectAvx10 cfg m flags bits
  let bits := clearUnpreserved cfg m bits
  if bits &&& tbit AVX3_DL ≠ 0 ∧ flags &&& groupAVX3_ZEN4 cfg = groupAVX3_ZEN4 cfg ∧ isAMD m = true then
    bits ||| tbit AVX3_ZEN4
  else bits

end Tgt
end Hwy
