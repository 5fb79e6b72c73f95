import Verif.Pswf.Char

/-!
# Model of the series of a prolate spheroidal plan (`pswf_sdmn`, `pswf_sckb`, sdp_pswf.cpp)

Exact arithmetic, for both mode parameters equal to `m` and the prolate function, as the library calls them
(sdp_pswf.cpp:629-638).  Then `ip` is 0, and `k` of row `i` (from 0) is `2 i`.
-/

namespace Sdp.Pswf
noncomputable section

/-- What a function does. -/
inductive Res (α : Type)
  /-- An access outside an array, or a read of an element never written. -/
  | fault
  /-- A division by zero: the results are infinite or not numbers. -/
  | nan
  | ok (a : α)

def Res.bind {α β : Type} : Res α → (α → Res β) → Res β
  | .fault, _ => .fault
  | .nan, _ => .nan
  | .ok a, f => f a

/-- An array of 200 elements (sdp_pswf.cpp:620 and 635); `none`: not written yet. -/
abbrev Buf := Nat → Option ℝ

def Buf.read (b : Buf) (i : Nat) : Res ℝ :=
  if i < 200 then
    match b i with
    | some x => .ok x
    | none => .fault
  else .fault

def Buf.write (b : Buf) (i : Nat) (x : ℝ) : Res Buf :=
  if i < 200 then .ok (fun j => if j = i then some x else b j) else .fault

/-- The elements from `i`, `n` of them, times `s`: sdp_pswf.cpp:128-133, 169-174, 239-244 and 245-250. -/
def Buf.scale (s : ℝ) (i : Nat) : Nat → Buf → Res Buf
  | 0, b => .ok b
  | n + 1, b => (b.read i).bind fun x => (b.write i (s * x)).bind fun b => Buf.scale s (i + 1) n b

/-- The three coefficients of the rows, `a`, `d_` and `g`, sdp_pswf.cpp:90-111. -/
structure Rows where
  a : Nat → ℝ
  d : Nat → ℝ
  g : Nat → ℝ

def rows (m : Nat) (c : ℝ) : Rows :=
  { a := fun i => coefA m (2 * i) (c * c), d := fun i => coefD m (2 * i) (c * c),
    g := fun i => coefG m (2 * i) (c * c) }

/-- The loop from the last row down, sdp_pswf.cpp:118-141, from `k` on; `R.g k` is not zero.  The result
is (`df`, `kb`, `fl`). -/
def back (R : Rows) (cv : ℝ) (nm : Nat) : Nat → ℝ → ℝ → Buf → Res (Buf × Nat × ℝ)
  | 0, _, _, df => .ok (df, 0, 0)
  | k + 1, f0, f1, df =>
    let f := -((R.d (k + 1) - cv) * f0 + R.a (k + 1) * f1) / R.g (k + 1)
    (df.read (k + 1)).bind fun t =>
      if |t| < |f| then
        (df.write k f).bind fun df =>
          if 10 ^ 100 < |f| then
            (Buf.scale (1 / 10 ^ 100) k (nm - k) df).bind fun df =>
              back R cv nm k (f * (1 / 10 ^ 100)) (f0 * (1 / 10 ^ 100)) df
          else back R cv nm k f f0 df
      else .ok (df, k + 1, t)

/-- The loop from the third row up, sdp_pswf.cpp:158-182, `n` rows from `j` on; the result is (`df`, `fs`). -/
def fore (R : Rows) (cv : ℝ) (kb : Nat) : Nat → Nat → ℝ → ℝ → Buf → Res (Buf × ℝ)
  | 0, _, _, f2, df => .ok (df, f2)
  | n + 1, j, f1, f2, df =>
    let f := -((R.d (j - 2) - cv) * f2 + R.g (j - 2) * f1) / R.a (j - 2)
    (if j ≤ kb then df.write (j - 1) f else .ok df).bind fun df =>
      if 10 ^ 100 < |f| then
        (Buf.scale (1 / 10 ^ 100) 0 j df).bind fun df =>
          fore R cv kb n (j + 1) (f2 * (1 / 10 ^ 100)) (f * (1 / 10 ^ 100)) df
      else fore R cv kb n (j + 1) f2 f df

/-- The rows up to `kb`, sdp_pswf.cpp:142-183; `kb` is not zero, and neither is any `R.a`. -/
def ahead (R : Rows) (cv : ℝ) (kb : Nat) (df : Buf) : Res (Buf × ℝ) :=
  let f1 := 1 / 10 ^ 100
  let f2 := -(R.d 0 - cv) / R.a 0 * f1
  (df.write 0 f1).bind fun df =>
    if kb = 1 then .ok (df, f2)
    else
      (df.write 1 f2).bind fun df =>
        if kb = 2 then .ok (df, -((R.d 1 - cv) * f2 + R.g 1 * f1) / R.a 1)
        else fore R cv kb (kb - 1) 3 f1 f2 df

/-- `r1` at its start, sdp_pswf.cpp:189-195. -/
def rStart (m : Nat) : ℝ := (List.range m).foldl (fun (r : ℝ) (j : Nat) => r * ((m + 1 + j : ℕ) : ℝ)) 1

/-- The step of `r1`, sdp_pswf.cpp:202 and 213. -/
def rNext (m k : Nat) (r : ℝ) : ℝ := -r * ((k : ℝ) + m - 3 / 2) / ((k : ℝ) - 1)

/-- The first sum, sdp_pswf.cpp:199-205, `n` terms from `k` on; the result is (`r1`, `su1`). -/
def sum1 (m : Nat) (df : Buf) : Nat → Nat → ℝ → ℝ → Res (ℝ × ℝ)
  | 0, _, r, su => .ok (r, su)
  | n + 1, k, r, su =>
    (df.read (k - 1)).bind fun x => sum1 m df n (k + 1) (rNext m k r) (su + rNext m k r * x)

/-- The second sum, sdp_pswf.cpp:206-222. -/
def sum2 (m : Nat) (df : Buf) : Nat → Nat → ℝ → ℝ → ℝ → Res ℝ
  | 0, _, _, su, _ => .ok su
  | n + 1, k, r, su, sw =>
    let r := if k ≠ 1 then rNext m k r else r
    (df.read (k - 1)).bind fun x =>
      let su := su + r * x
      if |sw - su| < |su| * (1 / 10 ^ 14) then .ok su else sum2 m df n (k + 1) r su su

/-- `r3`, sdp_pswf.cpp:224-230. -/
def rThree (m : Nat) : ℝ := (List.range m).foldl (fun (r : ℝ) (j : Nat) => r * (((j + 1 : ℕ) : ℝ) + (m + m) * (1 / 2))) 1

/-- The sums and the scaling, sdp_pswf.cpp:188-250; `r4` is 1. -/
def norm (m nm : Nat) (df : Buf) (kb : Nat) (fl fs : ℝ) : Res Buf :=
  (df.read 0).bind fun x0 =>
    (sum1 m df (kb - 1) 2 (rStart m) (x0 * rStart m)).bind fun r =>
      (sum2 m df (nm - kb) (kb + 1) r.1 0 0).bind fun su2 =>
        if fs = 0 ∨ fl * (r.2 / fs) + su2 = 0 then .nan
        else
          let s0 := rThree m / (fl * (r.2 / fs) + su2)
          (Buf.scale (fl / fs * s0) 0 kb df).bind fun df => Buf.scale s0 kb (nm - kb) df

/-- `nm`, sdp_pswf.cpp:71; `n` is `m`. -/
def numTerms (c : ℝ) : Nat := (trunc c + 25).toNat

/-- `pswf_sdmn`, sdp_pswf.cpp:27-252, into an array never written before.  The coefficients fill `nm + 2` elements of
arrays of 200 (sdp_pswf.cpp:43 and 90-111). -/
def sdmn (m : Nat) (c cv : ℝ) : Res Buf :=
  let nm := numTerms c
  if c < 1 / 10 ^ 10 then
    .ok fun i => if i = 0 then some 1 else if i < nm then some 0 else none
  else if 200 < nm + 2 then .fault
  else
    let R := rows m c
    (Buf.write (fun _ => none) nm 0).bind fun df =>
      (back R cv nm nm (1 / 10 ^ 100) 0 df).bind fun b =>
        if b.2.1 = 0 then norm m nm b.1 0 b.2.2 1
        else (ahead R cv b.2.1 b.1).bind fun x => norm m nm x.1 b.2.1 b.2.2 x.2

/-- The products of `r_` before the sum, sdp_pswf.cpp:315-329; `reg` is left out: it is a factor of both parts of the
quotient at sdp_pswf.cpp:358. -/
def rHead (m k : Nat) : ℝ :=
  (List.range k).foldl (fun (r : ℝ) (i : Nat) => r * (((k + m + i : ℕ) : ℝ) + 1 / 2))
    ((List.range (2 * m)).foldl (fun (r : ℝ) (i : Nat) => r * ((2 * k + 1 + i : ℕ) : ℝ)) 1)

/-- The step of `r_`, sdp_pswf.cpp:334-338. -/
def rStep (m k i : Nat) (r : ℝ) : ℝ :=
  let d1 : ℝ := i * 2
  let d2 : ℝ := m * 2 + d1
  let d3 : ℝ := i + m - 1 / 2
  r * d2 * (d2 - 1) * i * (d3 + k) / (d1 * (d1 - 1) * (i - k) * d3)

/-- The sum, sdp_pswf.cpp:331-348, `n` terms from `i` on; the result is (`sum`, `sw`). -/
def ckSum (m k : Nat) (df : Buf) : Nat → Nat → ℝ → ℝ → ℝ → Res (ℝ × ℝ)
  | 0, _, _, sum, sw => .ok (sum, sw)
  | n + 1, i, r, sum, sw =>
    (df.read i).bind fun x =>
      let r := rStep m k i r
      let sum := sum + r * x
      if |sw - sum| < |sum| * (1 / 10 ^ 14) then .ok (sum, sw) else ckSum m k df n (i + 1) r sum sum

/-- `r1`, sdp_pswf.cpp:350-356, without `reg`. -/
def fact1 (n : Nat) : ℝ := (List.range (n - 1)).foldl (fun (r : ℝ) (i : Nat) => r * ((i + 2 : ℕ) : ℝ)) 1

/-- The loop of `pswf_sckb`, sdp_pswf.cpp:310-359, `n` coefficients from `k` on; `ck` is an array of 200 elements.
`sw` is kept from one coefficient to the next. -/
def ckLoop (m nm : Nat) (df : Buf) : Nat → Nat → ℝ → ℝ → Buf → Res Buf
  | 0, _, _, _, ck => .ok ck
  | n + 1, k, fac, sw, ck =>
    let fac := -fac
    (df.read k).bind fun x =>
      (ckSum m k df (nm - k) (k + 1) (rHead m k) (rHead m k * x) sw).bind fun s =>
        (ck.write k (fac * s.1 / fact1 (m + k))).bind fun ck => ckLoop m nm df n (k + 1) fac s.2 ck

/-- `pswf_sckb`, sdp_pswf.cpp:256-361, into an array of zeros (sdp_pswf.cpp:620-623). -/
def sckb (m : Nat) (c : ℝ) (df : Buf) : Res Buf :=
  let c := if c ≤ 1 / 10 ^ 10 then 1 / 10 ^ 10 else c
  let nm := numTerms c
  ckLoop m nm df nm 0 (-((1 / 2) ^ m)) 0 fun i => if i < 200 then some 0 else none

/-- The coefficients of a plan, sdp_pswf.cpp:628-637, given the characteristic value. -/
def planCoef (m : Nat) (c cv : ℝ) : Res Buf := (sdmn m c cv).bind fun df => sckb m c df

end
end Sdp.Pswf
