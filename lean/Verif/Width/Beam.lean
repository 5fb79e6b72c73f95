import Verif.Width.Vis

/-
Which elements the beam functions touch, calculated in the integer types of the
code (property C117).  Values are modelled elsewhere (Station, Element).
Offsets and indices that callers pass as `int` are natural numbers here.
-/
namespace Sdp.Width

/-- The accesses to one element with `P` polarisations, under the switches for
the two polarisations: src/ska-sdp-func/station_beam/sdp_station.cpp:101-119
and 146-164, .cu:82-105 and 146-162. -/
def polTouch (P : Nat) (ex ey : Bool) (a : String) (i : Num) : Trace :=
  if P = 1 then touch a i
  else
    (if ex then touch a (i + num 0) ;; touch a (i + num 1) else skip) ;;
    (if ey then touch a (i + num 2) ;; touch a (i + num 3) else skip)

/-- The element pattern that antenna `i` uses: `data_idx ? data_idx[i] : i`,
src/ska-sdp-func/station_beam/sdp_station.cpp:98-100. -/
def beamOf (idx : Option (Nat → Nat)) (i : Num) : Num :=
  match idx with
  | none => i
  | some f => i.bind fun x => lit .i32 (f x.val.toNat)

/-- sdp_station_beam_dft on the CPU, for `E` antennas and `N` points, with
element patterns if `data`: src/ska-sdp-func/station_beam/sdp_station.cpp:54-165.
`num_elements` is an `int` initialised with an `int64_t` (193). -/
def stationCpu (P E N offPt offBeam : Nat) (idx : Option (Nat → Nat))
    (data ex ey : Bool) : Trace :=
  let num_in := intDim E
  let num_out := lit .i32 N
  loop .i32 num_out fun o =>
    touch "x_out" (o + lit .i32 offPt) ;;
    touch "y_out" (o + lit .i32 offPt) ;;
    touch "z_out" (o + lit .i32 offPt) ;;
    (loop .i32 num_in fun i =>
      touch "x_in" i ;; touch "y_in" i ;; touch "z_in" i ;; touch "weights" i ;;
      if data then
        let i_in := lit .i32 P * (beamOf idx i * num_out + o)
        polTouch P ex ey "data" i_in
      else skip) ;;
    let i_out_offset_scaled := lit .i32 P * (o + lit .i32 offBeam)
    polTouch P ex ey "output" i_out_offset_scaled

/-- sdp_station_beam_dft on the GPU: src/ska-sdp-func/station_beam/sdp_station.cu:9-165,
launched with 256 threads per block (sdp_station.cpp:327-330).  What the threads
of a block load together into shared memory (65-74) is left out. -/
def stationGpu (P E N offPt offBeam : Nat) (idx : Option (Nat → Nat))
    (data ex ey : Bool) : Launched :=
  let num_in := intDim E
  let num_out := lit .i32 N
  launch1 N 256 fun x =>
    let o := as .i32 x
    whenLt o num_out (
      touch "x_out" (o + lit .i32 offPt) ;;
      touch "y_out" (o + lit .i32 offPt) ;;
      touch "z_out" (o + lit .i32 offPt)) ;;
    whenLt o num_out (loop .i32 num_in fun i =>
      if data then
        let i_in := lit .i32 P * (beamOf idx i * num_out + o)
        polTouch P ex ey "data" i_in
      else skip) ;;
    whenLt o num_out (
      let i_out_offset_scaled := lit .i32 P * (o + lit .i32 offBeam)
      polTouch P ex ey "output" i_out_offset_scaled)

/-- sdp_dipole_pattern and sdp_dipole_pattern_scalar on the CPU:
src/ska-sdp-func/station_beam/sdp_element_dipole.cpp:43-98; `stride` and `off`
are arguments of the call. -/
def dipoleCpu (N stride off : Nat) : Trace :=
  loop .i32 (lit .i32 N) fun i =>
    touch "phi" i ;; touch "theta" i ;;
    touch "beam" (i * lit .i32 stride + lit .i32 off)

/-- The coefficients that one order `(l, abs_m)` reads:
src/ska-sdp-func/station_beam/sdp_element_spherical_wave_harp.cpp:67-101. -/
def harpOrder (l m : Num) : Trace :=
  m.bind fun m' =>
    let ind0 := l * l - num 1 + l
    if m'.val = 0 then
      touch "alpha" (num 4 * ind0 + num 0) ;;
      touch "alpha" (num 4 * ind0 + num 1) ;;
      touch "alpha" (num 4 * ind0 + num 2) ;;
      touch "alpha" (num 4 * ind0 + num 3)
    else
      let ind_m := num 4 * (ind0 - m)
      let ind_p := num 4 * (ind0 + m)
      touch "alpha" (ind_m + num 0) ;; touch "alpha" (ind_m + num 1) ;;
      touch "alpha" (ind_m + num 2) ;; touch "alpha" (ind_m + num 3) ;;
      touch "alpha" (ind_p + num 0) ;; touch "alpha" (ind_p + num 1) ;;
      touch "alpha" (ind_p + num 2) ;; touch "alpha" (ind_p + num 3)

/-- sdp_spherical_wave_pattern_harp for one point that is not a NaN:
src/ska-sdp-func/station_beam/sdp_element_spherical_wave_harp.cpp:28-125; orders
1 to `lMax`, and for each `abs_m` from `l` down to 0. -/
def harpCpu (N lMax off : Nat) : Trace :=
  loop .i32 (lit .i32 N) fun i =>
    touch "theta" i ;; touch "phi_x" i ;; touch "phi_y" i ;;
    (iters (fun k =>
      iters (fun d => harpOrder (lit .i32 ((k + 1 : Nat) : Int))
        (lit .i32 ((k + 1 - d : Nat) : Int))) (k + 2)) lMax) ;;
    let i_out := num 4 * (i + lit .i32 off)
    touch "pattern" (i_out + num 0) ;; touch "pattern" (i_out + num 1) ;;
    touch "pattern" (i_out + num 2) ;; touch "pattern" (i_out + num 3)

end Sdp.Width
