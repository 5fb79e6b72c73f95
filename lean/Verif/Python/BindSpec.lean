import Verif.Python.Bind

/-!
Specification for C118: which Python value every parameter of a C function
stands for, by its documented name.
-/

namespace Verif.Python.Bind

/-- The parameters of C that are the object whose method is called. -/
def selfNames : List String := ["plan", "fft", "mem", "sky_coord", "handle", "swiftly"]

/-- The parameters of C that have another name in Python: (Python function, name
in C, expression in Python). -/
def renamed : List (String × String × String) := [
  ("FunctionExampleA.__init__", "a", "par_a"),
  ("FunctionExampleA.__init__", "b", "par_b"),
  ("FunctionExampleA.__init__", "c", "par_c"),
  ("padded_fft_size", "n", "num"),
  ("Fft.__init__", "input", "input_data"),
  ("Fft.__init__", "output", "output_data"),
  ("Fft.exec", "input", "input_data"),
  ("Fft.exec", "output", "output_data"),
  ("Swiftly.add_to_facet", "prep_facet_inout", "facet_data_inout"),
  ("Swiftly.finish_facet", "prep_facet_inout", "facet_data"),
  ("determine_w_step", "x0", "x_0"),
  ("find_max_w_tower_height", "image_size", "grid_kernel.image_size"),
  ("find_max_w_tower_height", "subgrid_size", "grid_kernel.subgrid_size"),
  ("find_max_w_tower_height", "theta", "grid_kernel.theta"),
  ("find_max_w_tower_height", "w_step", "grid_kernel.w_step"),
  ("find_max_w_tower_height", "shear_u", "grid_kernel.shear_u"),
  ("find_max_w_tower_height", "shear_v", "grid_kernel.shear_v"),
  ("find_max_w_tower_height", "support", "grid_kernel.support"),
  ("find_max_w_tower_height", "oversampling", "grid_kernel.oversampling"),
  ("find_max_w_tower_height", "w_support", "grid_kernel.w_support"),
  ("find_max_w_tower_height", "w_oversampling", "grid_kernel.w_oversampling"),
  ("rms_diff", "a", "array_a"),
  ("rms_diff", "b", "array_b"),
  ("uvw_bounds_all", "start_chs", "start_ch"),
  ("uvw_bounds_all", "end_chs", "end_ch"),
  ("uvw_bounds_all", "uvw_min", "min_uvw"),
  ("uvw_bounds_all", "uvw_max", "max_uvw"),
  ("GridderWtowerUVW.grid", "uvws", "uvw"),
  ("GridderWtowerUVW.grid_subgrid", "uvws", "uvw"),
  ("dipole", "num_points", "theta_rad.size"),
  ("spherical_wave_harp", "num_points", "theta_rad.size"),
  ("aperture_array", "index_offset_points", "0"),
  ("aperture_array", "num_points", "point_x.size"),
  ("aperture_array", "index_offset_station_beam", "0"),
  ("optimised_indexed_weighting", "num_visibilites", "ctypes.byref(num_visibilities)"),
  ("count_and_prefix_sum", "num_visibilites", "ctypes.byref(num_visibilities)"),
  ("briggs_weights", "weight_grid_uv", "grid_uv"),
  ("uniform_weights", "weight_grid_uv", "grid_uv")]

/-- The Python expression that a parameter of C stands for. -/
def meant (method name : String) : String :=
  match renamed.find? fun r => r.1 = method ∧ r.2.1 = name with
  | some r => r.2.2
  | none => if name ∈ selfNames then "self" else name

/-- The integers of a C type. -/
def inRange : Ty → Int → Prop
  | .i32, n => -2 ^ 31 ≤ n ∧ n < 2 ^ 31
  | .i64, n => -2 ^ 63 ≤ n ∧ n < 2 ^ 63
  | _, _ => True

/-- The pointer types. -/
def Ty.Pointer : Ty → Prop
  | .handle _ | .pi32 | .pi64 | .pf64 => True
  | _ => False

/-- The C value is the Python value.  An array arrives as the structure that
`Mem` made of it; an integer and a floating-point number as the same number,
rounded only for `float`; an object as the structure that it wraps; `None` as
NULL; a reference as its address. -/
def Is {F : Type} (fl : Floats F) (env : Env F) (t : Ty) (v : Val F) (c : CVal F) : Prop :=
  if t = .handle "Mem" then ∃ a, env.mem v = some a ∧ c = .ptr (some a)
  else match v, c with
    | .int n, .int m => (t = .i32 ∨ t = .i64) ∧ m = n
    | .int n, .float x => ∃ y, fl.ofInt n = some y ∧ (t = .f64 ∧ x = y ∨ t = .f32 ∧ x = fl.single y)
    | .float x, .float y => t = .f64 ∧ y = x ∨ t = .f32 ∧ y = fl.single x
    | .object cls a, .ptr p => t = .handle cls ∧ p = some a
    | .none, .ptr p => t.Pointer ∧ p = none
    | .ref u a, .ptr p => (t = .pi32 ∧ u = .i32 ∨ t = .pi64 ∧ u = .i64 ∨ t = .pf64 ∧ u = .f64) ∧ p = some a
    | _, _ => False

end Verif.Python.Bind
