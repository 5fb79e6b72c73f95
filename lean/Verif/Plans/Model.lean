import Mathlib.Data.Multiset.AddSub
import Verif.Mem.Model

/-!
# C113: plan handles: creation, tables made on first use, release

Handles of grid_data/sdp_gridder_wtower_uvw.cpp, grid_data/sdp_gridder_direct.cpp, grid_data/sdp_gridder_uvw_es_fft.cpp,
fourier_transforms/sdp_pswf.cpp, sdp_swiftly.cpp and sdp_fft.cpp.  Modelled are `*status`, which memory is allocated, and
whether an array holds the table it is made for.  Every allocation of array data, copy to the GPU and call of a function not
modelled here takes its result from a tape, so a theorem about all tapes covers every pattern of failures.  `none` is undefined
behaviour: use of memory that is not there, or a second release.  Simplified: `calloc` of structures, shapes and strides
succeeds, a descriptor with its shape and stride is one block, and table sizes are positive.
-/

namespace Sdp.Plans

/-- What a call has at hand besides its plan: `*status`, results to come (success after the last), allocated blocks and the
next block; blocks are never reused. -/
structure Env where
  st : Status
  tape : List Status
  live : Multiset Nat
  next : Nat

/-- The result of the next thing that can fail. -/
def Env.attempt (e : Env) : Status × Env := (e.tape.headD .success, { e with tape := e.tape.tail })

/-- `calloc`. -/
def Env.alloc (e : Env) : Nat × Env := (e.next, { e with live := {e.next} + e.live, next := e.next + 1 })

/-- `free`. -/
def Env.release (b : Nat) (e : Env) : Option Env := if b ∈ e.live then some { e with live := e.live.erase b } else none

/-- `*status = st`. -/
def Env.fail (e : Env) (st : Status) : Env := { e with st := st }

/-- An array: its descriptor, its data and, if known, what is in it. -/
structure Obj (V : Type) where
  desc : Nat
  buf : Option Nat
  val : Option V

section
variable {V : Type}

/-- `sdp_mem_create`, utility/sdp_mem.cpp:164-177, 190-230 and 40-88. -/
def create (e : Env) : Obj V × Env :=
  let d := e.alloc
  if d.2.st ≠ .success then (⟨d.1, none, none⟩, d.2)
  else
    let r := d.2.attempt
    if r.1 ≠ .success then (⟨d.1, none, none⟩, r.2.fail r.1)
    else
      let b := r.2.alloc
      (⟨d.1, some b.1, none⟩, b.2)

/-- `sdp_mem_create_copy`, utility/sdp_mem.cpp:310-322 and 453-498. -/
def copyOf (src : Obj V) (e : Env) : Obj V × Env :=
  let c := create e
  if c.2.st ≠ .success ∨ c.1.buf = none ∨ src.buf = none then c
  else
    let r := c.2.attempt
    if r.1 ≠ .success then (c.1, r.2.fail r.1) else ({ c.1 with val := src.val }, r.2)

/-- `sdp_mem_create_alias`, utility/sdp_mem.cpp:300-307: a descriptor only. -/
def aliasOf (e : Env) : Obj V × Env := (⟨e.alloc.1, none, none⟩, e.alloc.2)

/-- A function that writes an array and tests `*status` on entry. -/
def fill (v : V) (m : Obj V) (e : Env) : Obj V × Env :=
  if e.st ≠ .success then (m, e)
  else
    let r := e.attempt
    if r.1 ≠ .success then (m, r.2.fail r.1) else ({ m with val := some v }, r.2)

/-- `sdp_mem_free` and `sdp_mem_ref_dec`, utility/sdp_mem.cpp:607-627 and 741-744, for an array with one reference. -/
def memFree (m : Obj V) (e : Env) : Option Env :=
  (match m.buf with
    | none => some e
    | some b => e.release b).bind fun e => e.release m.desc

/-- The same for a pointer that may be null. -/
def memFree? (m : Option (Obj V)) (e : Env) : Option Env :=
  match m with
  | none => some e
  | some m => memFree m e

/-- Access to the data of an array: what is found there. -/
def access (m : Obj V) (e : Env) : Option (Option V) :=
  match m.buf with
  | none => none
  | some b => if b ∈ e.live then some m.val else none

end

/-- The tables that belong to the parameters `P` of a plan. -/
structure Tables (P V : Type) where
  /-- is the sub-grid size odd? -/
  odd : P → Bool
  /-- is the number of columns of the kernels even? -/
  even : P → Bool × Bool
  uv : P → V
  w : P → V
  pattern : P → V
  coeff : P → V
  values : P → Nat → V
  window : P → V
  inverse : P → V
  quad : P → V

/-! ## Prolate spheroidal functions, fourier_transforms/sdp_pswf.cpp:604-795 -/

/-- `sdp_Pswf`, sdp_pswf.cpp:604-613; `size` is the length of `pswf`. -/
structure PswfPlan (P V : Type) where
  par : P
  block : Nat
  coeff : Obj V
  coeffGpu : Option (Obj V)
  pswf : Option (Obj V)
  pswfGpu : Option (Obj V)
  size : Nat

section
variable {P V : Type} (T : Tables P V)

/-- `sdp_pswf_create`, sdp_pswf.cpp:616-639: the status of the allocation is not looked at, the coefficients are written. -/
def pswfCreate (p : P) (e : Env) : Option (PswfPlan P V × Env) :=
  let s := e.alloc
  let c : Obj V × Env := create (s.2.fail .success)
  (access c.1 c.2).bind fun _ =>
    some (⟨p, s.1, { c.1 with val := some (T.coeff p) }, none, none, none, 0⟩, c.2.fail e.st)

/-- `sdp_pswf_coeff`, sdp_pswf.cpp:642-659. -/
def pswfCoeff (gpu : Bool) (h : PswfPlan P V) (e : Env) : PswfPlan P V × Env × Option (Obj V) :=
  if gpu then
    match h.coeffGpu with
    | none => let c := copyOf h.coeff e; ({ h with coeffGpu := some c.1 }, c.2, some c.1)
    | some g => (h, e, some g)
  else (h, e, some h.coeff)

/-- `sdp_pswf_values`, sdp_pswf.cpp:662-677: without values there is no array to copy from. -/
def pswfValues (gpu : Bool) (h : PswfPlan P V) (e : Env) : Option (PswfPlan P V × Env × Option (Obj V)) :=
  if gpu then
    match h.pswfGpu with
    | none => h.pswf.bind fun m => let c := copyOf m e; some ({ h with pswfGpu := some c.1 }, c.2, some c.1)
    | some g => some (h, e, some g)
  else some (h, e, h.pswf)

/-- `sdp_pswf_generate` with a size and no array, sdp_pswf.cpp:718, 733-777. -/
def pswfGenerate (n : Nat) (h : PswfPlan P V) (e : Env) : Option (PswfPlan P V × Env) :=
  if e.st ≠ .success then some (h, e)
  else if n = 0 then some (h, e.fail .invalidArgument)
  else (memFree? h.pswf e).bind fun e => (memFree? h.pswfGpu e).bind fun e =>
    let c : Obj V × Env := create e
    let f := fill (T.values h.par n) c.1 c.2
    some ({ h with pswf := some f.1, pswfGpu := none, size := n }, f.2)

/-- `sdp_pswf_free`, sdp_pswf.cpp:700-707. -/
def pswfFree (h : PswfPlan P V) (e : Env) : Option Env :=
  (memFree? h.pswf e).bind fun e => (memFree? h.pswfGpu e).bind fun e => (memFree h.coeff e).bind fun e =>
    (memFree? h.coeffGpu e).bind fun e => e.release h.block

/-- `sdp_generate_pswf`, sdp_pswf.cpp:783-795. -/
def generatePswf (p : P) (v : V) (m : Obj V) (e : Env) : Option (Obj V × Env) :=
  if e.st ≠ .success then some (m, e)
  else (pswfCreate T p e).bind fun h =>
    let f := fill v m h.2
    (pswfFree h.1 f.2).bind fun e => some (f.1, e)

/-! ## W-towers, grid_data/sdp_gridder_wtower_uvw.cpp -/

end

/-- `sdp_GridderWtowerUVW`, sdp_gridder_wtower_uvw.cpp:19-38; `planes` counts w-planes for degridding and gridding. -/
structure TowerPlan (P V : Type) where
  par : P
  block : Nat
  uv : Obj V
  w : Obj V
  pattern : Obj V
  uvGpu : Option (Obj V)
  wGpu : Option (Obj V)
  patternGpu : Option (Obj V)
  planes : Int × Int

section
variable {P V : Type} (T : Tables P V)

/-- `sdp_gridder_make_pswf_kernel`, sdp_gridder_utils.cpp:1335-1349; with an even number of columns an entry of the temporary
array is written whatever became of its allocation. -/
def makeKernel (even : Bool) (p : P) (v : V) (m : Obj V) (e : Env) : Option (Obj V × Env) :=
  if e.st ≠ .success then some (m, e)
  else
    let t : Obj V × Env := create e
    (generatePswf T p v t.1 t.2).bind fun t =>
      (if even then (access t.1 t.2).map fun _ => () else some ()).bind fun _ =>
        let f := fill v m t.2
        (memFree t.1 f.2).bind fun e => some (f.1, e)

/-- `sdp_gridder_wtower_uvw_create`, sdp_gridder_wtower_uvw.cpp:660-723. -/
def towerCreate (p : P) (e : Env) : Option (Option (TowerPlan P V) × Env) :=
  if T.odd p then some (none, e.fail .invalidArgument)
  else
    let s := e.alloc
    let u : Obj V × Env := create s.2
    (makeKernel T (T.even p).1 p (T.uv p) u.1 u.2).bind fun u =>
      let w : Obj V × Env := create u.2
      (makeKernel T (T.even p).2 p (T.w p) w.1 w.2).bind fun w =>
        let q : Obj V × Env := create w.2
        let q := fill (T.pattern p) q.1 q.2
        some (some ⟨p, s.1, u.1, w.1, q.1, none, none, none, (0, 0)⟩, q.2)

/-- The copies made when a call first finds its arrays on the GPU, sdp_gridder_wtower_uvw.cpp:763-778 and 972-987. -/
def towerCopies (h : TowerPlan P V) (e : Env) : TowerPlan P V × Env :=
  match h.patternGpu with
  | some _ => (h, e)
  | none =>
    let w := copyOf h.w e
    let u := copyOf h.uv w.2
    let q := copyOf h.pattern u.2
    ({ h with wGpu := some w.1, uvGpu := some u.1, patternGpu := some q.1 }, q.2)

/-- The three tables a call works with. -/
def towerArrays (gpu : Bool) (h : TowerPlan P V) : Option (Obj V × Obj V × Obj V) :=
  if gpu then h.uvGpu.bind fun u => h.wGpu.bind fun w => h.patternGpu.map fun q => (u, w, q)
  else some (h.uv, h.w, h.pattern)

/-- Access to three arrays. -/
def access3 (a : Obj V × Obj V × Obj V) (e : Env) : Option (List (Option V)) :=
  (access a.1 e).bind fun u => (access a.2.1 e).bind fun w => (access a.2.2 e).map fun q => [u, w, q]

/-- `sdp_gridder_wtower_uvw_degrid` and `_grid` on `planes` w-planes, sdp_gridder_wtower_uvw.cpp:743-908 and 952-1122: the
copies, then everything else as one step that can fail, which reads the tables if there is no error.  The planes are counted
also after an error. -/
def towerUse (gpu grid : Bool) (planes : Int) (h : TowerPlan P V) (e : Env) :
    Option (TowerPlan P V × Env × List (Option V)) :=
  if e.st ≠ .success then some (h, e, [])
  else
    let c := if gpu then towerCopies h e else (h, e)
    let n := if grid then (c.1.planes.1, c.1.planes.2 + planes) else (c.1.planes.1 + planes, c.1.planes.2)
    let h := { c.1 with planes := n }
    if c.2.st ≠ .success then some (h, c.2, [])
    else
      let r := c.2.attempt
      if r.1 ≠ .success then some (h, r.2.fail r.1, [])
      else (towerArrays gpu h).bind fun a => (access3 a r.2).bind fun l => some (h, r.2, l)

/-- `sdp_gridder_wtower_uvw_free`, sdp_gridder_wtower_uvw.cpp:1149-1159. -/
def towerFree (h : TowerPlan P V) (e : Env) : Option Env :=
  (memFree h.uv e).bind fun e => (memFree? h.uvGpu e).bind fun e => (memFree h.w e).bind fun e =>
    (memFree? h.wGpu e).bind fun e => (memFree h.pattern e).bind fun e => (memFree? h.patternGpu e).bind fun e =>
      e.release h.block

end

/-! ## Direct gridder, grid_data/sdp_gridder_direct.cpp -/

/-- `sdp_GridderDirect`, sdp_gridder_direct.cpp:16-26. -/
structure DirectPlan (P V : Type) where
  par : P
  block : Nat
  window : Obj V

/-- `sdp_SwiFTly`, fourier_transforms/sdp_swiftly.cpp:9-20. -/
structure SwiftlyPlan (P V : Type) where
  par : P
  block : Nat
  fb : Obj V
  fn : Obj V

/-- `sdp_Fft`, fourier_transforms/sdp_fft.cpp:270-292. -/
structure FftPlan (P V : Type) where
  par : P
  block : Nat
  input : Obj V
  output : Obj V
  temp : Option (Obj V)

/-- `sdp_GridderUvwEsFft`, grid_data/sdp_gridder_uvw_es_fft.cpp:12-57. -/
structure EsPlan (P V : Type) where
  par : P
  block : Nat
  stack : Option (Obj V)
  kernel : Option (Obj V)
  nodes : Option (Obj V)
  weights : Option (Obj V)
  corr : Option (Obj V)

section
variable {P V : Type} (T : Tables P V)

/-- `sdp_gridder_direct_create`, sdp_gridder_direct.cpp:40-56: the first sample of the window is written without a test. -/
def directCreate (p : P) (e : Env) : Option (DirectPlan P V × Env) :=
  let s := e.alloc
  let c : Obj V × Env := create s.2
  (generatePswf T p (T.window p) c.1 c.2).bind fun c =>
    (access c.1 c.2).bind fun _ => some (⟨p, s.1, c.1⟩, c.2)

/-- A call of the direct gridder, as far as the plan goes, sdp_gridder_direct.cpp:60-186. -/
def directUse (h : DirectPlan P V) (e : Env) : Option (DirectPlan P V × Env × List (Option V)) :=
  if e.st ≠ .success then some (h, e, [])
  else
    let r := e.attempt
    if r.1 ≠ .success then some (h, r.2.fail r.1, [])
    else (access h.window r.2).bind fun v => some (h, r.2, [v])

/-- `sdp_gridder_direct_free`, sdp_gridder_direct.cpp:189-194. -/
def directFree (h : DirectPlan P V) (e : Env) : Option Env := (memFree h.window e).bind fun e => e.release h.block

/-! ## SwiFTly, fourier_transforms/sdp_swiftly.cpp -/

/-- `sdp_swiftly_create` for acceptable sizes or not, sdp_swiftly.cpp:31-125. -/
def swiftlyCreate (good : Bool) (p : P) (e : Env) : Option (Option (SwiftlyPlan P V) × Env) :=
  if e.st ≠ .success then some (none, e)
  else if good = false then some (none, e.fail .invalidArgument)
  else
    let b : Obj V × Env := create e
    if b.2.st ≠ .success then some (none, b.2)
    else (generatePswf T p (T.inverse p) b.1 b.2).bind fun b =>
      if b.2.st ≠ .success then (memFree b.1 b.2).bind fun e => some (none, e)
      else
        let n : Obj V × Env := create b.2
        if n.2.st ≠ .success then (memFree b.1 n.2).bind fun e => some (none, e)
        else (access b.1 n.2).bind fun _ => (access n.1 n.2).bind fun _ =>
          let s := n.2.alloc
          some (some ⟨p, s.1, b.1, { n.1 with val := some (T.window p) }⟩, s.2)

/-- A SwiFTly function, as far as the plan goes: it reads one of the two tables, e.g. sdp_swiftly.cpp:173-343. -/
def swiftlyUse (h : SwiftlyPlan P V) (e : Env) : Option (SwiftlyPlan P V × Env × List (Option V)) :=
  if e.st ≠ .success then some (h, e, [])
  else
    let r := e.attempt
    if r.1 ≠ .success then some (h, r.2.fail r.1, [])
    else (access h.fb r.2).bind fun b => (access h.fn r.2).bind fun n => some (h, r.2, [b, n])

/-- `sdp_swiftly_free`, sdp_swiftly.cpp:147-154. -/
def swiftlyFree (h : SwiftlyPlan P V) (e : Env) : Option Env := (memFree h.fb e).bind fun e => memFree h.fn e

/-! ## Fourier transforms, fourier_transforms/sdp_fft.cpp -/

/-- `sdp_fft_create` on the CPU without MKL and PocketFFT, sdp_fft.cpp:824-879 and 689-736: the checks, then the plan, whose
scratch array is made if the back end accepts the arrays. -/
def fftCreate (p : P) (e : Env) : Option (FftPlan P V) × Env :=
  if e.st ≠ .success then (none, e)
  else
    let r := e.attempt
    if r.1 ≠ .success then (none, r.2.fail r.1)
    else
      let s := r.2.alloc
      let i : Obj V × Env := aliasOf s.2
      let o : Obj V × Env := aliasOf i.2
      let k := o.2.attempt
      if k.1 ≠ .success then (some ⟨p, s.1, i.1, o.1, none⟩, k.2.fail k.1)
      else
        let t : Obj V × Env := create k.2
        (some ⟨p, s.1, i.1, o.1, some t.1⟩, t.2)

/-- `sdp_fft_free`, sdp_fft.cpp:939-961. -/
def fftFree (h : FftPlan P V) (e : Env) : Option Env :=
  (memFree h.input e).bind fun e => (memFree h.output e).bind fun e => (memFree? h.temp e).bind fun e => e.release h.block

/-! ## ES gridder, grid_data/sdp_gridder_uvw_es_fft.cpp -/

/-- `sdp_gridder_uvw_es_fft_free_plan`, sdp_gridder_uvw_es_fft.cpp:60-69. -/
def esFree (h : EsPlan P V) (e : Env) : Option Env :=
  (memFree? h.stack e).bind fun e => (memFree? h.kernel e).bind fun e => (memFree? h.nodes e).bind fun e =>
    (memFree? h.weights e).bind fun e => (memFree? h.corr e).bind fun e => e.release h.block

/-- The tables of the plan: arrays on the host, which are written without a test, and copies of them on the GPU,
sdp_gridder_uvw_es_fft.cpp:431-507.  (The four plain arrays of lines 400-407 are freed in lines 485-488.) -/
def esTables (h : EsPlan P V) (e : Env) : Option (EsPlan P V × Env) :=
  let a : Obj V × Env := create e
  let b : Obj V × Env := create a.2
  let c : Obj V × Env := create b.2
  let d : Obj V × Env := create c.2
  (access a.1 d.2).bind fun _ => (access b.1 d.2).bind fun _ => (access c.1 d.2).bind fun _ => (access d.1 d.2).bind fun _ =>
    let t := some (T.quad h.par)
    let k := copyOf { a.1 with val := t } d.2
    let n := copyOf { b.1 with val := t } k.2
    let w := copyOf { c.1 with val := t } n.2
    let r := copyOf { d.1 with val := t } w.2
    (memFree a.1 r.2).bind fun e => (memFree b.1 e).bind fun e => (memFree c.1 e).bind fun e => (memFree d.1 e).bind fun e =>
      some ({ h with kernel := some k.1, nodes := some n.1, weights := some w.1, corr := some r.1 }, e)

/-- A step of the creation that can fail, after which the plan is freed. -/
def esGuard (h : EsPlan P V) (e : Env) (rest : Env → Option (Option (EsPlan P V) × Env)) : Option (Option (EsPlan P V) × Env) :=
  if e.st ≠ .success then (esFree h e).bind fun e => some (none, e) else rest e

/-- One more thing that can fail. -/
def Env.try (e : Env) : Env := if e.attempt.1 ≠ .success then e.attempt.2.fail e.attempt.1 else e.attempt.2

/-- `sdp_gridder_uvw_es_fft_create_plan`, sdp_gridder_uvw_es_fft.cpp:291-528. -/
def esCreate (p : P) (e : Env) : Option (Option (EsPlan P V) × Env) :=
  if e.st ≠ .success then some (none, e)
  else
    let c := e.try
    if c.st ≠ .success then some (none, c)
    else
      let s := c.alloc
      let h : EsPlan P V := ⟨p, s.1, none, none, none, none, none⟩
      esGuard h s.2.try fun e => esGuard h e.try fun e =>
        (esTables T h e).bind fun t =>
          let g : Obj V × Env := create t.2
          let h := { t.1 with stack := some g.1 }
          esGuard h g.2 fun e => esGuard h e.try fun e => some (some h, e)

/-- A call of the ES gridder, as far as the plan goes, sdp_gridder_uvw_es_fft.cpp:532-956. -/
def esUse (h : EsPlan P V) (e : Env) : Option (EsPlan P V × Env × List (Option V)) :=
  if e.st ≠ .success then some (h, e, [])
  else
    let r := e.attempt
    if r.1 ≠ .success then some (h, r.2.fail r.1, [])
    else h.kernel.bind fun a => h.nodes.bind fun b => h.weights.bind fun c => h.corr.bind fun d =>
      (access3 (a, b, c) r.2).bind fun l => (access d r.2).bind fun v => some (h, r.2, l ++ [v])

end

/-! ## Histories -/

/-- A handle of any kind. -/
inductive Handle (P V : Type) where
  | pswf (h : PswfPlan P V)
  | tower (h : TowerPlan P V)
  | direct (h : DirectPlan P V)
  | swiftly (h : SwiftlyPlan P V)
  | fft (h : FftPlan P V)
  | es (h : EsPlan P V)

/-- Kinds of handles. -/
inductive Kind where
  | pswf | tower | direct | swiftly | fft | es
deriving DecidableEq

/-- A call; `i` is the number of the handle. -/
inductive Op (P : Type) where
  | make (k : Kind) (good : Bool) (p : P)
  | use (i : Nat) (gpu grid : Bool) (planes : Int)
  | coeff (i : Nat) (gpu : Bool)
  | values (i : Nat) (gpu : Bool)
  | generate (i : Nat) (n : Nat)
  | free (i : Nat)
  | freeNull (k : Kind)

/-- The handles made so far, `none` once freed or if none was returned, and the memory. -/
structure State (P V : Type) where
  handles : List (Option (Handle P V))
  live : Multiset Nat
  next : Nat

section
variable {P V : Type} (T : Tables P V)

/-- Creation of a handle of each kind. -/
def makeHandle (k : Kind) (good : Bool) (p : P) (e : Env) : Option (Option (Handle P V) × Env) :=
  match k with
  | .pswf => (pswfCreate T p e).map fun r => (some (.pswf r.1), r.2)
  | .tower => (towerCreate T p e).map fun r => (r.1.map .tower, r.2)
  | .direct => (directCreate T p e).map fun r => (some (.direct r.1), r.2)
  | .swiftly => (swiftlyCreate T good p e).map fun r => (r.1.map .swiftly, r.2)
  | .fft =>
    let r : Option (FftPlan P V) × Env := fftCreate p e
    some (r.1.map .fft, r.2)
  | .es => (esCreate T p e).map fun r => (r.1.map .es, r.2)

/-- The calls that use a handle, with the contents of the tables they read. -/
def useHandle (gpu grid : Bool) (planes : Int) (h : Handle P V) (e : Env) : Option (Handle P V × Env × List (Option V)) :=
  match h with
  | .tower h => (towerUse gpu grid planes h e).map fun r => (.tower r.1, r.2)
  | .direct h => (directUse h e).map fun r => (.direct r.1, r.2)
  | .swiftly h => (swiftlyUse h e).map fun r => (.swiftly r.1, r.2)
  | .es h => (esUse h e).map fun r => (.es r.1, r.2)
  | h => some (h, e, [])

/-- Release of a handle of each kind. -/
def freeHandle (h : Handle P V) (e : Env) : Option Env :=
  match h with
  | .pswf h => pswfFree h e
  | .tower h => towerFree h e
  | .direct h => directFree h e
  | .swiftly h => swiftlyFree h e
  | .fft h => fftFree h e
  | .es h => esFree h e

/-- Release of a null pointer: all but `sdp_pswf_free` test for it (sdp_pswf.cpp:702, sdp_gridder_wtower_uvw.cpp:1151,
sdp_gridder_direct.cpp:191, sdp_swiftly.cpp:149, sdp_fft.cpp:941, sdp_gridder_uvw_es_fft.cpp:62). -/
def freeNothing (k : Kind) (e : Env) : Option Env := if k = .pswf then none else some e

/-- The caller uses the array a query returned, if there is no error. -/
def lookAt (m : Option (Obj V)) (e : Env) : Option (List (Option V)) :=
  if e.st ≠ .success then some [] else m.bind fun m => (access m e).map fun v => [v]

/-- A call made with `*status = st`, and what it leaves: handles, memory, `*status` and the contents of the tables that were
read.  A call on a handle that is not there is not made. -/
def step (s : State P V) (op : Op P) (st : Status) (tape : List Status) :
    Option (State P V × Status × List (Option V)) :=
  let e : Env := ⟨st, tape, s.live, s.next⟩
  let done (hs : List (Option (Handle P V))) (e : Env) (l : List (Option V)) :
      Option (State P V × Status × List (Option V)) := some (⟨hs, e.live, e.next⟩, e.st, l)
  match op with
  | .make k good p => (makeHandle T k good p e).bind fun r => done (s.handles ++ [r.1]) r.2 []
  | .use i gpu grid planes =>
    match s.handles[i]? with
    | some (some h) => (useHandle gpu grid planes h e).bind fun r => done (s.handles.set i (some r.1)) r.2.1 r.2.2
    | _ => done s.handles e []
  | .coeff i gpu =>
    match s.handles[i]? with
    | some (some (.pswf h)) =>
      let r := pswfCoeff gpu h e
      (lookAt r.2.2 r.2.1).bind fun l => done (s.handles.set i (some (.pswf r.1))) r.2.1 l
    | _ => done s.handles e []
  | .values i gpu =>
    match s.handles[i]? with
    | some (some (.pswf h)) => (pswfValues gpu h e).bind fun r =>
      (lookAt r.2.2 r.2.1).bind fun l => done (s.handles.set i (some (.pswf r.1))) r.2.1 l
    | _ => done s.handles e []
  | .generate i n =>
    match s.handles[i]? with
    | some (some (.pswf h)) => (pswfGenerate T n h e).bind fun r => done (s.handles.set i (some (.pswf r.1))) r.2 []
    | _ => done s.handles e []
  | .free i =>
    match s.handles[i]? with
    | some (some h) => (freeHandle h e).bind fun e => done (s.handles.set i none) e []
    | _ => done s.handles e []
  | .freeNull k => (freeNothing k e).bind fun e => done s.handles e []

/-- A history: calls with the status each is made with and what fails in it. -/
def run (s : State P V) : List (Op P × Status × List Status) → Option (State P V)
  | [] => some s
  | c :: cs => (step T s c.1 c.2.1 c.2.2).bind fun r => run r.1 cs

end
end Sdp.Plans
