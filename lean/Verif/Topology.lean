import Verif.Basic

/-!
# Model of hwy/contrib/thread_pool/topology.cc (Linux)

Bytes are `Char`s. A buffer is the list of its initialised bytes: reading after it is undefined behaviour. Pointers into a
string are suffixes (`List.drop`). The contents of sysfs are an arbitrary function.
-/

namespace Hwy
namespace Topo

/-! ### Reading a file -/

/-- One call of `read(2)`: interrupted by a signal, or reads up to `k + 1` bytes. -/
inductive ReadEvent
  | eintr
  | chunk (k : Nat)
deriving DecidableEq, Repr

/-- `File::Read` (topology.cc:399-419): `todo` is the part of the file not yet read, `buf` the bytes written to `buf200` so far
(`pos` is its length). The kernel returns at least one byte unless at the end of the file or asked for zero bytes. When the
list of events is used up, reads return as much as was asked for. Result: the contents of `buf200`. -/
def fileRead : List ReadEvent → List Char → List Char → M (List Char)
  | .eintr :: ev, todo, buf => fileRead ev todo buf
  | .chunk k :: ev, todo, buf =>
    let bytesRead := min (k + 1) (min todo.length (200 - buf.length))
    if bytesRead = 0 then
      if buf.length < 200 then .ok (buf ++ ['\x00']) else .error .ub
    else
      let buf := buf ++ todo.take bytesRead
      if 200 < buf.length then .error .abort
      else fileRead ev (todo.drop bytesRead) buf
  | [], todo, buf =>
    let buf := buf ++ todo.take (200 - buf.length)
    if 200 < buf.length then .error .abort
    else if buf.length < 200 then .ok (buf ++ ['\x00']) else .error .ub

/-! ### Parsing -/

def isDigit (c : Char) : Bool := decide ('0' ≤ c) && decide (c ≤ '9')

/-- Loop of `ParseDigits` (topology.cc:443-448): `n` is the number of characters until `HWY_MIN(end, stop)`. Returns the number
of characters consumed and `*out`. -/
def digitsLoop : Nat → List Char → Nat → Nat → M (Nat × Nat)
  | 0, _, used, out => .ok (used, out)
  | _ + 1, [], _, _ => .error .ub
  | n + 1, c :: s, used, out =>
    if isDigit c then digitsLoop n s (used + 1) (out * 10 + (c.toNat - '0'.toNat)) else .ok (used, out)

/-- `ParseDigits(str, end, pos, out)` (topology.cc:438-454): the return value, the new `pos` and `*out`. -/
def parseDigits (str : List Char) (end_ pos : Nat) : M (Bool × Nat × Nat) :=
  if pos ≤ end_ then do
    let stop := pos + 9
    let (used, out) ← digitsLoop (min end_ stop - pos) (str.drop pos) 0 0
    let pos := pos + used
    if pos = 0 then return (false, pos, 0)
    else return (true, pos, out)
  else .error .abort

/-- `ParseNumberWithOptionalSuffix` (topology.cc:457-472): `none` if it returns false. -/
def parseNumber (str : List Char) (len : Nat) : M (Option Nat) := do
  let (ok, pos, out) ← parseDigits str len 0
  if !ok then return none
  else
    let c ← readAt str pos
    let (out, pos) := if c = 'K' then (out * 2 ^ 10, pos + 1) else (out, pos)
    let c ← readAt str pos
    let (out, pos) := if c = 'M' then (out * 2 ^ 20, pos + 1) else (out, pos)
    let c ← readAt str pos
    if c ≠ '\x00' ∧ c ≠ '\n' then .error .abort
    else return some out

/-- `strchr(s, c)` for `c != 0`. -/
def strchr (c : Char) : List Char → M (Option Nat)
  | [] => .error .ub
  | x :: s =>
    if x = c then .ok (some 0)
    else if x = '\x00' then .ok none
    else do return (← strchr c s).map (· + 1)

/-- `find` (topology.cc:575-581): `none` is `kNotFound`. -/
def find (list : List Char) (listEnd pos : Nat) (c : Char) : M (Option Nat) := do
  let k ← strchr c (list.drop pos)
  match k with
  | none => return none
  | some k => if pos + k < listEnd then return some (pos + k) else .error .abort

/-- `HWY_MIN(x, y)` where `none` is the largest `size_t`. -/
def minFound : Option Nat → Option Nat → Option Nat
  | none, y => y
  | some x, none => some x
  | some x, some y => some (min x y)

/-- `parse_lp` (topology.cc:585-597): the number and the new `pos`. -/
def parseLp (riscv : Bool) (list : List Char) (listEnd maxLp : Nat) (end_ : Option Nat) (pos : Nat) : M (Nat × Nat) := do
  let end_ := match end_ with
    | none => listEnd
    | some e => min e listEnd
  let (ok, pos, lp) ← parseDigits list end_ pos
  if !ok then .error .abort
  else
    let lp := if riscv then min lp maxLp else lp
    if maxLp < lp then .error .abort
    else if end_ < pos then .error .abort
    else return (lp, pos)

/-- One term (topology.cc:602-616): the new `expanded` and `pos`. `reserve` throws if `expanded.size() + last - first + 1` wraps
around, which is far above `max_size()`. -/
def expandTerm (riscv : Bool) (list : List Char) (listEnd maxLp : Nat) (expanded : List Nat) (pos : Nat) :
    M (List Nat × Nat) := do
  let dash ← find list listEnd pos '-'
  let comma ← find list listEnd pos ','
  let (first, pos) ← parseLp riscv list listEnd maxLp (minFound dash comma) pos
  let c ← readAt list pos
  if c = '-' then
    let pos := pos + 1
    let comma ← find list listEnd pos ','
    let (last, pos) ← parseLp riscv list listEnd maxLp comma pos
    if expanded.length + last + 1 < first then .error .abort
    else return (expanded ++ (List.range (last + 1 - first)).map (first + ·), pos)
  else return (expanded ++ [first], pos)

/-- The loop over terms (topology.cc:600-627). -/
def expandLoop (riscv : Bool) (list : List Char) (listEnd maxLp : Nat) : Nat → List Nat → Nat → M (List Nat)
  | 0, _, _ => .error .abort
  | fuel + 1, expanded, pos => do
    let (expanded, pos) ← expandTerm riscv list listEnd maxLp expanded pos
    if pos = listEnd then return expanded
    else
      let c ← readAt list pos
      if c = '\x00' ∨ c = '\n' then return expanded
      else if c = ',' then expandLoop riscv list listEnd maxLp fuel expanded (pos + 1)
      else .error .abort

/-- `ExpandList(list, list_end, max_lp)` (topology.cc:567-630). Every term but the first consumes a comma, so the number of
terms is bounded by the size of the buffer. -/
def expandList (riscv : Bool) (list : List Char) (listEnd maxLp : Nat) : M (List Nat) :=
  expandLoop riscv list listEnd maxLp (list.length + 1) [] 0

/-! ### Detection of packages -/

/-- The sysfs files read per logical processor or node (topology.cc:481-487). -/
inductive Key
  | package | cluster | core | l2 | l3 | node
deriving DecidableEq, Repr

/-- Contents of sysfs; `none` if the file cannot be opened or read. -/
abbrev Sysfs := Key → Nat → Option (List Char)

/-- `ReadSysfs` (topology.cc:426-434): the bytes in the buffer, `none` for a return value of zero. -/
def readSysfs (fs : Sysfs) (key : Key) (lp : Nat) : M (Option (List Char)) :=
  match fs key lp with
  | none => .ok none
  | some contents => do return some (← fileRead [] contents [])

/-- `ReadNumberWithOptionalSuffix` (topology.cc:474-479). -/
def readNumber (fs : Sysfs) (key : Key) (lp : Nat) : M (Option Nat) := do
  match ← readSysfs fs key lp with
  | none => return none
  | some buf => parseNumber buf buf.length

/-- `Remapper` (topology.cc:491-517): `indices_` as the list of its entries in order of insertion, `num_` its length. -/
structure Remapper where
  indices : List (Nat × Nat) := []
  num : Nat := 0
deriving DecidableEq, Repr

/-- `Remapper::operator()` (topology.cc:496-509) for an output type with maximum `maxT`; returns the remapper and the index. -/
def Remapper.call (r : Remapper) (fs : Sysfs) (key : Key) (lp maxT : Nat) : M (Option (Remapper × Nat)) := do
  match ← readNumber fs key lp with
  | none => return none
  | some opaque_ =>
    let (r', index) := match r.indices.lookup opaque_ with
      | some i => (r, i)
      | none => (⟨r.indices ++ [(opaque_, r.num)], r.num + 1⟩, r.num)
    if r'.num ≤ index then .error .abort
    else if maxT ≤ index then .error .abort
    else return some (r', index)

/-- `Topology::LP` (topology.h:93-101). -/
structure LP where
  cluster : Nat := 0
  core : Nat := 0
  package : Nat := 0
  smt : Nat := 0
  node : Nat := 0
deriving DecidableEq, Repr

/-- `kMaxLogicalProcessors` (topology.h:34). -/
def kMaxLogicalProcessors : Nat := 1024

/-- `PerPackage` (topology.cc:517-522). -/
structure PerPackage where
  clusters : Remapper := {}
  cores : Remapper := {}
  smtPerCore : List Nat := List.replicate kMaxLogicalProcessors 0

/-- First loop of `DetectPackages` (topology.cc:529-535); `none` on failure. -/
def detect1 (fs : Sysfs) : Nat → Nat → Remapper → List LP → M (Option (Remapper × List LP))
  | 0, _, packages, lps => .ok (some (packages, lps))
  | todo + 1, lp, packages, lps => do
    match ← packages.call fs .package lp 255 with
    | none => return none
    | some (packages, index) =>
      let l ← readAt lps lp
      let lps ← writeAt lps lp { l with package := index }
      detect1 fs todo (lp + 1) packages lps

/-- `pp.clusters(kCluster, lp, &lps[lp].cluster)`, zero on failure (topology.cc:542-544). -/
def clusterOf (fs : Sysfs) (pp : PerPackage) (lp : Nat) : M (PerPackage × Nat) := do
  match ← pp.clusters.call fs .cluster lp 65535 with
  | none => return (pp, 0)
  | some (r, index) => return ({ pp with clusters := r }, index)

/-- Second loop (topology.cc:539-555). -/
def detect2 (fs : Sysfs) : Nat → Nat → List PerPackage → List LP → M (Option (List PerPackage × List LP))
  | 0, _, pps, lps => .ok (some (pps, lps))
  | todo + 1, lp, pps, lps => do
    let l ← readAt lps lp
    let pp ← readAt pps l.package
    let (pp, cluster) ← clusterOf fs pp lp
    match ← pp.cores.call fs .core lp 65535 with
    | none => return none
    | some (r, core) =>
      if kMaxLogicalProcessors ≤ core then .error .abort
      else
        let smt ← readAt pp.smtPerCore core
        let spc ← writeAt pp.smtPerCore core ((smt + 1) % 256)
        if 16 ≤ smt then .error .abort
        else
          let pps ← writeAt pps l.package { pp with cores := r, smtPerCore := spc }
          let lps ← writeAt lps lp { l with cluster := cluster, core := core, smt := smt }
          detect2 fs todo (lp + 1) pps lps

/-- `PackageSizes` (topology.cc:362-365). -/
structure PackageSizes where
  numClusters : Nat
  numCores : Nat
deriving DecidableEq, Repr

/-- Third loop (topology.cc:557-563). -/
def packageSizes : List PerPackage → M (List PackageSizes)
  | [] => .ok []
  | pp :: pps => do
    if pp.cores.num = 0 then .error .abort
    else
      let rest ← packageSizes pps
      return ⟨max 1 pp.clusters.num, pp.cores.num⟩ :: rest

/-- `DetectPackages` (topology.cc:526-565): `none` is the empty vector (the partial updates of `lps` are then dropped: callers must not use them); otherwise also the updated `lps`. -/
def detectPackages (fs : Sysfs) (lps : List LP) : M (Option (List PackageSizes × List LP)) := do
  match ← detect1 fs lps.length 0 {} lps with
  | none => return none
  | some (packages, lps) =>
    if packages.num = 0 then .error .abort
    else
      match ← detect2 fs lps.length 0 (List.replicate packages.num {}) lps with
      | none => return none
      | some (pps, lps) => return some (← packageSizes pps, lps)

/-- `for (size_t lp : list) lps[lp].node = node` (topology.cc:642-644). -/
def setNode (node : Nat) : List Nat → List LP → M (List LP)
  | [], lps => .ok lps
  | lp :: list, lps => do
    let l ← readAt lps lp
    let lps ← writeAt lps lp { l with node := node % 256 }
    setNode node list lps

/-- `SetNodes` (topology.cc:633-646); `fuel` bounds the number of nodes. -/
def setNodes (riscv : Bool) (fs : Sysfs) : Nat → Nat → List LP → M (List LP)
  | 0, _, _ => .error .abort
  | fuel + 1, node, lps => do
    match ← readSysfs fs .node node with
    | none => return lps
    | some buf =>
      let list ← expandList riscv buf buf.length (lps.length - 1)
      let lps ← setNode node list lps
      setNodes riscv fs fuel (node + 1) lps

/-- `Cluster`, `Core`: the set of LP as the list of its members in increasing order; `Package` (topology.h:70-88). -/
structure Cluster where
  lps : List Nat := []
  privateKib : Nat := 0
  sharedKib : Nat := 0
deriving DecidableEq, Repr

structure Core where
  lps : List Nat := []
deriving DecidableEq, Repr

structure Package where
  clusters : List Cluster
  cores : List Core
deriving DecidableEq, Repr

/-- Sets of LP (topology.cc:876-881). `LogicalProcessorSet::Set` needs `lp < kMaxLogicalProcessors`. -/
def populate (lps : List LP) : Nat → Nat → List Package → M (List Package)
  | 0, _, packages => .ok packages
  | todo + 1, lp, packages => do
    let l ← readAt lps lp
    let p ← readAt packages l.package
    if kMaxLogicalProcessors ≤ lp then .error .ub
    else
      let cl ← readAt p.clusters l.cluster
      let cls ← writeAt p.clusters l.cluster { cl with lps := cl.lps ++ [lp] }
      let co ← readAt p.cores l.core
      let cos ← writeAt p.cores l.core { co with lps := co.lps ++ [lp] }
      let packages ← writeAt packages l.package ⟨cls, cos⟩
      populate lps todo (lp + 1) packages

/-- `bytes >> 10` of a number read from sysfs, or the previous value. -/
def cacheKib (fs : Sysfs) (key : Key) (lp old : Nat) : M Nat := do
  match ← readNumber fs key lp with
  | none => return old
  | some bytes => return bytes / 2 ^ 10

/-- `SetClusterCacheSizes` for the clusters of a package (topology.cc:650-663). `First()` of an empty set is undefined. -/
def cacheSizes (fs : Sysfs) : List Cluster → M (List Cluster)
  | [] => .ok []
  | c :: cs => do
    match c.lps with
    | [] => .error .ub
    | lp :: _ =>
      let p ← cacheKib fs .l2 lp c.privateKib
      let s ← cacheKib fs .l3 lp c.sharedKib
      let rest ← cacheSizes fs cs
      return { c with privateKib := p, sharedKib := s } :: rest

def setClusterCacheSizes (fs : Sysfs) : List Package → M (List Package)
  | [] => .ok []
  | p :: ps => do
    let cs ← cacheSizes fs p.clusters
    let rest ← setClusterCacheSizes fs ps
    return ⟨cs, p.cores⟩ :: rest

/-- `Topology` (topology.h:63-104). -/
structure Topology where
  packages : List Package
  lps : List LP
deriving DecidableEq, Repr

/-- `Topology::Topology()` (topology.cc:861-885): `total` is `TotalLogicalProcessors()`, `numNodes` bounds the NUMA nodes. -/
def topology (riscv : Bool) (fs : Sysfs) (total numNodes : Nat) : M Topology := do
  match ← detectPackages fs (List.replicate total {}) with
  | none => return ⟨[], List.replicate total {}⟩
  | some (sizes, lps) =>
    let lps ← setNodes riscv fs (numNodes + 1) 0 lps
    let packages := sizes.map (fun s => (⟨List.replicate s.numClusters {}, List.replicate s.numCores {}⟩ : Package))
    let packages ← populate lps lps.length 0 packages
    let packages ← setClusterCacheSizes fs packages
    return ⟨packages, lps⟩

/-- `TotalLogicalProcessors` on Linux (topology.cc:197-248): `ret` is the result of `sysconf`. -/
def totalLogicalProcessors (ret : Int) : Nat :=
  let total := if ret < 0 then 0 else ret.toNat
  if total = 0 then 1
  else if kMaxLogicalProcessors < total then kMaxLogicalProcessors
  else total

/-! ### Caches -/

/-- `Cache` (topology.h:114-126). -/
structure Cache where
  sizeKib : Nat := 0
  sets : Nat := 0
  bytesPerLine : Nat := 0
  associativity : Nat := 0
  coresSharing : Nat := 0
deriving DecidableEq, Repr

/-- `DivByFactor` (topology.cc:87-95). -/
def divByFactor (whole part : Nat) : M Nat :=
  if part = 0 then .error .abort
  else
    let div := whole / part
    let mul := div * part
    if mul ≠ whole then .error .abort else .ok div

/-- From the values read from sysfs to the per-core cache (topology.cc:961-992): line size, then division by the number of
cores sharing it. `associativity * sets` is a `uint32_t` product. -/
def initCache (sizeKib ways sets numCores : Nat) : M Cache := do
  let bytes := sizeKib * 1024
  let lines := (ways * sets) % 2 ^ 32
  let line ← divByFactor bytes lines
  let numCores := if numCores = 0 then 1 else numCores
  return ⟨sizeKib / numCores, sets / numCores, line % 2 ^ 16, ways, numCores % 2 ^ 16⟩

/-- `ComputeSets` (topology.cc:1177-1198). -/
def computeSets (c : Cache) : M Cache :=
  if c.sizeKib = 0 then .ok { c with sets := 0 }
  else
    let bytes := c.sizeKib * 1024
    if c.bytesPerLine = 0 ∨ c.associativity = 0 then .error .ub
    else
      let lines := bytes / c.bytesPerLine
      let sets := lines / c.associativity
      if c.sets = 0 then .ok { c with sets := sets % 2 ^ 32 }
      else if c.sets < sets ∨ 1 < c.sets - sets then .error .abort
      else .ok c

/-- The files of one cache, `cpu0/cache/index%zu/` (topology.cc:895-907); `none` if a file cannot be read. -/
structure CacheFiles where
  type : Option (List Char)
  level : Option (List Char)
  size : Option (List Char)
  ways : Option (List Char)
  sets : Option (List Char)
  shared : Option (List Char)
deriving DecidableEq, Repr

/-- `ReadString` (topology.cc:896-907): without trailing newlines and terminators. -/
def readString : Option (List Char) → M (List Char)
  | none => .ok []
  | some contents => do
    let buf ← fileRead [] contents []
    return (buf.reverse.dropWhile (fun c => decide (c = '\x00' ∨ c = '\n'))).reverse

/-- `WriteSysfs<T>` (topology.cc:909-920) for a `T` of `bits` bits; `none` if it returns false. `c_str()` ends with a
terminator. -/
def writeSysfs (bits : Nat) (file : Option (List Char)) : M (Option Nat) := do
  let str ← readString file
  let (ok, pos, val) ← parseDigits (str ++ ['\x00']) str.length 0
  if !ok then return none
  else if str.length < pos then .error .abort
  else return some (val % 2 ^ bits)

/-- Size, associativity and number of sets; `none` if one is missing (topology.cc:952-959). -/
def cacheParams (f : CacheFiles) : M (Option (Nat × Nat × Nat)) := do
  match ← writeSysfs 32 f.size with
  | none => return none
  | some size =>
    match ← writeSysfs 16 f.ways with
    | none => return none
    | some ways =>
      match ← writeSysfs 32 f.sets with
      | none => return none
      | some sets => return some (size, ways, sets)

/-- Number of cores sharing a cache (topology.cc:968-988); one if unknown. -/
def sharedCores (riscv : Bool) (lps : List LP) (f : CacheFiles) : M Nat := do
  let str ← readString f.shared
  if str = [] then return 1
  else
    let list ← expandList riscv (str ++ ['\x00']) str.length (lps.length - 1)
    let numCores := (list.filter (fun lp => decide (lp < lps.length ∧ (lps.getD lp {}).smt = 0))).length
    return if numCores = 0 then 1 else numCores

/-- One cache whose type is not empty (topology.cc:939-993): the new `caches`. -/
def cacheEntry (riscv : Bool) (lps : List LP) (caches : List Cache) (type : List Char) (f : CacheFiles) : M (List Cache) := do
  if type ≠ "Data".toList ∧ type ≠ "Unified".toList then return caches
  else
    match ← writeSysfs 32 f.level with
    | none => return caches
    | some level =>
      if level ≠ 1 ∧ level ≠ 2 ∧ level ≠ 3 then return caches
      else
        let c ← readAt caches level
        if c.sizeKib ≠ 0 then return caches
        else
          match ← cacheParams f with
          | none => writeAt caches level {}
          | some (size, ways, sets) =>
            let numCores ← sharedCores riscv lps f
            let c ← initCache size ways sets numCores
            writeAt caches level c

/-- The loop of `InitCachesSysfs` (topology.cc:936-994): ends at the first entry without type. -/
def cacheLoop (riscv : Bool) (lps : List LP) : List CacheFiles → List Cache → M (List Cache)
  | [], caches => .ok caches
  | f :: fs, caches => do
    let type ← readString f.type
    if type = [] then return caches
    else
      let caches ← cacheEntry riscv lps caches type f
      cacheLoop riscv lps fs caches

/-- `InitDataCaches` on Linux (topology.cc:925-1012, 1200-1231): `none` is null. -/
def dataCaches (riscv : Bool) (fs : Sysfs) (total : Nat) (files : List CacheFiles) : M (Option (List Cache)) := do
  match ← detectPackages fs (List.replicate total {}) with
  | none => return none
  | some (_, lps) =>
    let caches ← cacheLoop riscv lps files (List.replicate 4 {})
    let c1 ← readAt caches 1
    let c2 ← readAt caches 2
    let c3 ← readAt caches 3
    if c1.sizeKib = 0 ∨ c2.sizeKib = 0 then return none
    else
      let c1 ← computeSets c1
      let c2 ← computeSets c2
      let c3 ← computeSets c3
      let c3 := if 16 ≤ c3.coresSharing ∧ c3.sizeKib ≤ 512 then {} else c3
      return some [{}, c1, c2, c3]

end Topo
end Hwy
