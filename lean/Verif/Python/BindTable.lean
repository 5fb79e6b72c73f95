import Verif.Python.Bind

/-!
The prototypes of the C functions, their declarations in Python and the calls
(property C118).  Not here: the calls that make and free `Mem` and `SkyCoord`
(`Verif.Python.Array`, `Verif.Python.Life`, `Verif.Python.Sky`).
-/

namespace Verif.Python.Bind

/-- src/ska-sdp-func/clean/sdp_hogbom_clean.h:36-47 and src/ska_sdp_func/clean/hogbom_clean.py:7-22. -/
def sdp_hogbom_clean : Func := ⟨"sdp_hogbom_clean",
    [(.handle "Mem", "dirty_img"), (.handle "Mem", "psf"), (.handle "Mem", "cbeam_details"),
     (.f64, "loop_gain"), (.f64, "threshold"), (.i32, "cycle_limit"),
     (.handle "Mem", "clean_model"), (.handle "Mem", "residual"), (.handle "Mem", "skymodel"),
     (.err, "status")],
    none,
    [.handle "Mem", .handle "Mem", .handle "Mem", .f64, .f64, .i32, .handle "Mem", .handle "Mem",
     .handle "Mem"],
    none, true⟩

/-- src/ska-sdp-func/clean/sdp_ms_clean_cornwell.h:41-53 and src/ska_sdp_func/clean/ms_clean_cornwell.py:7-23. -/
def sdp_ms_clean_cornwell : Func := ⟨"sdp_ms_clean_cornwell",
    [(.handle "Mem", "dirty_img"), (.handle "Mem", "psf"), (.handle "Mem", "cbeam_details"),
     (.handle "Mem", "scale_list"), (.f64, "loop_gain"), (.f64, "threshold"),
     (.i32, "cycle_limit"), (.handle "Mem", "clean_model"), (.handle "Mem", "residual"),
     (.handle "Mem", "skymodel"), (.err, "status")],
    none,
    [.handle "Mem", .handle "Mem", .handle "Mem", .handle "Mem", .f64, .f64, .i32, .handle "Mem",
     .handle "Mem", .handle "Mem"],
    none, true⟩

/-- src/ska-sdp-func/examples/sdp_function_example_a.h:34-39 and src/ska_sdp_func/examples/function_example_a.py:37-46. -/
def sdp_function_example_a_create_plan : Func := ⟨"sdp_function_example_a_create_plan",
    [(.i32, "a"), (.i32, "b"), (.f32, "c"), (.err, "status")],
    some (.handle "FunctionExampleA"),
    [.i32, .i32, .f32],
    some (.handle "FunctionExampleA"), true⟩

/-- src/ska-sdp-func/examples/sdp_function_example_a.h:59-59 and src/ska_sdp_func/examples/function_example_a.py:48-53. -/
def sdp_function_example_a_free_plan : Func := ⟨"sdp_function_example_a_free_plan",
    [(.handle "FunctionExampleA", "handle")],
    none,
    [.handle "FunctionExampleA"],
    none, true⟩

/-- src/ska-sdp-func/examples/sdp_function_example_a.h:48-52 and src/ska_sdp_func/examples/function_example_a.py:56-64. -/
def sdp_function_example_a_exec : Func := ⟨"sdp_function_example_a_exec",
    [(.handle "FunctionExampleA", "plan"), (.handle "Mem", "output"), (.err, "status")],
    none,
    [.handle "FunctionExampleA", .handle "Mem"],
    none, true⟩

/-- src/ska-sdp-func/examples/sdp_vector_add.h:24-29 and src/ska_sdp_func/examples/vector.py:7-16. -/
def sdp_vector_add : Func := ⟨"sdp_vector_add",
    [(.handle "Mem", "input_a"), (.handle "Mem", "input_b"), (.handle "Mem", "output"),
     (.err, "status")],
    none,
    [.handle "Mem", .handle "Mem", .handle "Mem"],
    none, true⟩

/-- src/ska-sdp-func/fourier_transforms/sdp_fft_padded_size.h:26-26 and src/ska_sdp_func/fourier_transforms/fft.py:92-99. -/
def sdp_fft_padded_size : Func := ⟨"sdp_fft_padded_size",
    [(.i32, "n"), (.f64, "padding_factor")],
    some .i32,
    [.i32, .f64],
    some .i32, false⟩

/-- src/ska-sdp-func/fourier_transforms/sdp_fft.h:60-66 and src/ska_sdp_func/fourier_transforms/fft.py:63-73. -/
def sdp_fft_create : Func := ⟨"sdp_fft_create",
    [(.handle "Mem", "input"), (.handle "Mem", "output"), (.i32, "num_dims_fft"),
     (.i32, "is_forward"), (.err, "status")],
    some (.handle "Fft"),
    [.handle "Mem", .handle "Mem", .i32, .i32],
    some (.handle "Fft"), true⟩

/-- src/ska-sdp-func/fourier_transforms/sdp_fft.h:106-106 and src/ska_sdp_func/fourier_transforms/fft.py:75-79. -/
def sdp_fft_free : Func := ⟨"sdp_fft_free",
    [(.handle "Fft", "fft")],
    none,
    [.handle "Fft"],
    none, false⟩

/-- src/ska-sdp-func/fourier_transforms/sdp_fft.h:76-81 and src/ska_sdp_func/fourier_transforms/fft.py:81-90. -/
def sdp_fft_exec : Func := ⟨"sdp_fft_exec",
    [(.handle "Fft", "fft"), (.handle "Mem", "input"), (.handle "Mem", "output"), (.err, "status")],
    none,
    [.handle "Fft", .handle "Mem", .handle "Mem"],
    none, true⟩

/-- src/ska-sdp-func/fourier_transforms/sdp_swiftly.h:96-102 and src/ska_sdp_func/fourier_transforms/swiftly.py:207-213. -/
def sdp_swiftly_prepare_facet : Func := ⟨"sdp_swiftly_prepare_facet",
    [(.handle "SwiFTly", "swiftly"), (.handle "Mem", "facet"), (.handle "Mem", "prep_facet_out"),
     (.i64, "facet_offset"), (.err, "status")],
    none,
    [.handle "SwiFTly", .handle "Mem", .handle "Mem", .i64],
    none, true⟩

/-- src/ska-sdp-func/fourier_transforms/sdp_swiftly.h:120-126 and src/ska_sdp_func/fourier_transforms/swiftly.py:229-235. -/
def sdp_swiftly_extract_from_facet : Func := ⟨"sdp_swiftly_extract_from_facet",
    [(.handle "SwiFTly", "swiftly"), (.handle "Mem", "prep_facet"),
     (.handle "Mem", "contribution_out"), (.i64, "subgrid_offset"), (.err, "status")],
    none,
    [.handle "SwiFTly", .handle "Mem", .handle "Mem", .i64],
    none, true⟩

/-- src/ska-sdp-func/fourier_transforms/sdp_swiftly.h:143-149 and src/ska_sdp_func/fourier_transforms/swiftly.py:254-260. -/
def sdp_swiftly_add_to_subgrid : Func := ⟨"sdp_swiftly_add_to_subgrid",
    [(.handle "SwiFTly", "swiftly"), (.handle "Mem", "contribution"),
     (.handle "Mem", "subgrid_image_inout"), (.i64, "facet_offset"), (.err, "status")],
    none,
    [.handle "SwiFTly", .handle "Mem", .handle "Mem", .i64],
    none, true⟩

/-- src/ska-sdp-func/fourier_transforms/sdp_swiftly.h:173-180 and src/ska_sdp_func/fourier_transforms/swiftly.py:279-286. -/
def sdp_swiftly_add_to_subgrid_2d : Func := ⟨"sdp_swiftly_add_to_subgrid_2d",
    [(.handle "SwiFTly", "swiftly"), (.handle "Mem", "contribution"),
     (.handle "Mem", "subgrid_image_inout"), (.i64, "facet_offset0"), (.i64, "facet_offset1"),
     (.err, "status")],
    none,
    [.handle "SwiFTly", .handle "Mem", .handle "Mem", .i64, .i64],
    none, true⟩

/-- src/ska-sdp-func/fourier_transforms/sdp_swiftly.h:194-199 and src/ska_sdp_func/fourier_transforms/swiftly.py:308-311. -/
def sdp_swiftly_finish_subgrid_inplace : Func := ⟨"sdp_swiftly_finish_subgrid_inplace",
    [(.handle "SwiFTly", "swiftly"), (.handle "Mem", "subgrid_inout"), (.i64, "subgrid_offset"),
     (.err, "status")],
    none,
    [.handle "SwiFTly", .handle "Mem", .i64],
    none, true⟩

/-- src/ska-sdp-func/fourier_transforms/sdp_swiftly.h:214-220 and src/ska_sdp_func/fourier_transforms/swiftly.py:325-331. -/
def sdp_swiftly_finish_subgrid : Func := ⟨"sdp_swiftly_finish_subgrid",
    [(.handle "SwiFTly", "swiftly"), (.handle "Mem", "subgrid_image"),
     (.handle "Mem", "subgrid_out"), (.i64, "subgrid_offset"), (.err, "status")],
    none,
    [.handle "SwiFTly", .handle "Mem", .handle "Mem", .i64],
    none, true⟩

/-- src/ska-sdp-func/fourier_transforms/sdp_swiftly.h:239-245 and src/ska_sdp_func/fourier_transforms/swiftly.py:347-353. -/
def sdp_swiftly_finish_subgrid_inplace_2d : Func := ⟨"sdp_swiftly_finish_subgrid_inplace_2d",
    [(.handle "SwiFTly", "swiftly"), (.handle "Mem", "subgrid_inout"), (.i64, "subgrid_offset0"),
     (.i64, "subgrid_offset1"), (.err, "status")],
    none,
    [.handle "SwiFTly", .handle "Mem", .i64, .i64],
    none, true⟩

/-- src/ska-sdp-func/fourier_transforms/sdp_swiftly.h:262-267 and src/ska_sdp_func/fourier_transforms/swiftly.py:373-376. -/
def sdp_swiftly_prepare_subgrid_inplace : Func := ⟨"sdp_swiftly_prepare_subgrid_inplace",
    [(.handle "SwiFTly", "swiftly"), (.handle "Mem", "subgrid_inout"), (.i64, "subgrid_offset"),
     (.err, "status")],
    none,
    [.handle "SwiFTly", .handle "Mem", .i64],
    none, true⟩

/-- src/ska-sdp-func/fourier_transforms/sdp_swiftly.h:287-293 and src/ska_sdp_func/fourier_transforms/swiftly.py:390-396. -/
def sdp_swiftly_prepare_subgrid_inplace_2d : Func := ⟨"sdp_swiftly_prepare_subgrid_inplace_2d",
    [(.handle "SwiFTly", "swiftly"), (.handle "Mem", "subgrid_inout"), (.i64, "subgrid_offset0"),
     (.i64, "subgrid_offset1"), (.err, "status")],
    none,
    [.handle "SwiFTly", .handle "Mem", .i64, .i64],
    none, true⟩

/-- src/ska-sdp-func/fourier_transforms/sdp_swiftly.h:311-317 and src/ska_sdp_func/fourier_transforms/swiftly.py:417-423. -/
def sdp_swiftly_extract_from_subgrid : Func := ⟨"sdp_swiftly_extract_from_subgrid",
    [(.handle "SwiFTly", "swiftly"), (.handle "Mem", "subgrid_image"),
     (.handle "Mem", "contribution_out"), (.i64, "facet_offset"), (.err, "status")],
    none,
    [.handle "SwiFTly", .handle "Mem", .handle "Mem", .i64],
    none, true⟩

/-- src/ska-sdp-func/fourier_transforms/sdp_swiftly.h:339-346 and src/ska_sdp_func/fourier_transforms/swiftly.py:442-449. -/
def sdp_swiftly_extract_from_subgrid_2d : Func := ⟨"sdp_swiftly_extract_from_subgrid_2d",
    [(.handle "SwiFTly", "swiftly"), (.handle "Mem", "subgrid_image"),
     (.handle "Mem", "contribution_out"), (.i64, "facet_offset0"), (.i64, "facet_offset1"),
     (.err, "status")],
    none,
    [.handle "SwiFTly", .handle "Mem", .handle "Mem", .i64, .i64],
    none, true⟩

/-- src/ska-sdp-func/fourier_transforms/sdp_swiftly.h:363-369 and src/ska_sdp_func/fourier_transforms/swiftly.py:471-477. -/
def sdp_swiftly_add_to_facet : Func := ⟨"sdp_swiftly_add_to_facet",
    [(.handle "SwiFTly", "swiftly"), (.handle "Mem", "contribution"),
     (.handle "Mem", "prep_facet_inout"), (.i64, "subgrid_offset"), (.err, "status")],
    none,
    [.handle "SwiFTly", .handle "Mem", .handle "Mem", .i64],
    none, true⟩

/-- src/ska-sdp-func/fourier_transforms/sdp_swiftly.h:386-392 and src/ska_sdp_func/fourier_transforms/swiftly.py:495-501. -/
def sdp_swiftly_finish_facet : Func := ⟨"sdp_swiftly_finish_facet",
    [(.handle "SwiFTly", "swiftly"), (.handle "Mem", "prep_facet_inout"),
     (.handle "Mem", "facet_out"), (.i64, "facet_offset"), (.err, "status")],
    none,
    [.handle "SwiFTly", .handle "Mem", .handle "Mem", .i64],
    none, true⟩

/-- src/ska-sdp-func/grid_data/sdp_degrid_uvw_custom.h:33-45 and src/ska_sdp_func/grid_data/degrid_uvw_custom.py:73-89. -/
def sdp_degrid_uvw_custom : Func := ⟨"sdp_degrid_uvw_custom",
    [(.handle "Mem", "grid"), (.handle "Mem", "uvw"), (.handle "Mem", "uv_kernel"),
     (.handle "Mem", "w_kernel"), (.f64, "theta"), (.f64, "wstep"), (.f64, "channel_start_hz"),
     (.f64, "channel_step_hz"), (.i32, "conjugate"), (.handle "Mem", "vis"), (.err, "status")],
    none,
    [.handle "Mem", .handle "Mem", .handle "Mem", .handle "Mem", .f64, .f64, .f64, .f64, .i32,
     .handle "Mem"],
    none, true⟩

/-- src/ska-sdp-func/grid_data/sdp_grid_wstack_wtower.h:44-64 and src/ska_sdp_func/grid_data/grid_wstack_wtower.py:146-170. -/
def sdp_grid_wstack_wtower_degrid_all : Func := ⟨"sdp_grid_wstack_wtower_degrid_all",
    [(.handle "Mem", "image"), (.f64, "freq0_hz"), (.f64, "dfreq_hz"), (.handle "Mem", "uvw"),
     (.i32, "subgrid_size"), (.f64, "theta"), (.f64, "w_step"), (.f64, "shear_u"),
     (.f64, "shear_v"), (.i32, "support"), (.i32, "oversampling"), (.i32, "w_support"),
     (.i32, "w_oversampling"), (.f64, "subgrid_frac"), (.f64, "w_tower_height"),
     (.i32, "verbosity"), (.handle "Mem", "vis"), (.i32, "num_threads"), (.err, "status")],
    none,
    [.handle "Mem", .f64, .f64, .handle "Mem", .i32, .f64, .f64, .f64, .f64, .i32, .i32, .i32,
     .i32, .f64, .f64, .i32, .handle "Mem", .i32],
    none, true⟩

/-- src/ska-sdp-func/grid_data/sdp_grid_wstack_wtower.h:89-109 and src/ska_sdp_func/grid_data/grid_wstack_wtower.py:172-196. -/
def sdp_grid_wstack_wtower_grid_all : Func := ⟨"sdp_grid_wstack_wtower_grid_all",
    [(.handle "Mem", "vis"), (.f64, "freq0_hz"), (.f64, "dfreq_hz"), (.handle "Mem", "uvw"),
     (.i32, "subgrid_size"), (.f64, "theta"), (.f64, "w_step"), (.f64, "shear_u"),
     (.f64, "shear_v"), (.i32, "support"), (.i32, "oversampling"), (.i32, "w_support"),
     (.i32, "w_oversampling"), (.f64, "subgrid_frac"), (.f64, "w_tower_height"),
     (.i32, "verbosity"), (.handle "Mem", "image"), (.i32, "num_threads"), (.err, "status")],
    none,
    [.handle "Mem", .f64, .f64, .handle "Mem", .i32, .f64, .f64, .f64, .f64, .i32, .i32, .i32,
     .i32, .f64, .f64, .i32, .handle "Mem", .i32],
    none, true⟩

/-- src/ska-sdp-func/grid_data/sdp_gridder_direct.h:57-66 and src/ska_sdp_func/grid_data/gridder_direct.py:265-278. -/
def sdp_gridder_direct_create : Func := ⟨"sdp_gridder_direct_create",
    [(.i32, "image_size"), (.i32, "subgrid_size"), (.f64, "theta"), (.f64, "w_step"),
     (.f64, "shear_u"), (.f64, "shear_v"), (.i32, "support"), (.err, "status")],
    some (.handle "GridderDirect"),
    [.i32, .i32, .f64, .f64, .f64, .f64, .i32],
    some (.handle "GridderDirect"), true⟩

/-- src/ska-sdp-func/grid_data/sdp_gridder_direct.h:185-185 and src/ska_sdp_func/grid_data/gridder_direct.py:344-348. -/
def sdp_gridder_direct_free : Func := ⟨"sdp_gridder_direct_free",
    [(.handle "GridderDirect", "plan")],
    none,
    [.handle "GridderDirect"],
    none, false⟩

/-- src/ska-sdp-func/grid_data/sdp_gridder_direct.h:90-103 and src/ska_sdp_func/grid_data/gridder_direct.py:280-297. -/
def sdp_gridder_direct_degrid : Func := ⟨"sdp_gridder_direct_degrid",
    [(.handle "GridderDirect", "plan"), (.handle "Mem", "subgrid_image"),
     (.i32, "subgrid_offset_u"), (.i32, "subgrid_offset_v"), (.i32, "subgrid_offset_w"),
     (.f64, "freq0_hz"), (.f64, "dfreq_hz"), (.handle "Mem", "uvws"), (.handle "Mem", "start_chs"),
     (.handle "Mem", "end_chs"), (.handle "Mem", "vis"), (.err, "status")],
    none,
    [.handle "GridderDirect", .handle "Mem", .i32, .i32, .i32, .f64, .f64, .handle "Mem",
     .handle "Mem", .handle "Mem", .handle "Mem"],
    none, true⟩

/-- src/ska-sdp-func/grid_data/sdp_gridder_direct.h:115-122 and src/ska_sdp_func/grid_data/gridder_direct.py:299-310. -/
def sdp_gridder_direct_degrid_correct : Func := ⟨"sdp_gridder_direct_degrid_correct",
    [(.handle "GridderDirect", "plan"), (.handle "Mem", "facet"), (.i32, "facet_offset_l"),
     (.i32, "facet_offset_m"), (.i32, "w_offset"), (.err, "status")],
    none,
    [.handle "GridderDirect", .handle "Mem", .i32, .i32, .i32],
    none, true⟩

/-- src/ska-sdp-func/grid_data/sdp_gridder_direct.h:146-159 and src/ska_sdp_func/grid_data/gridder_direct.py:312-329. -/
def sdp_gridder_direct_grid : Func := ⟨"sdp_gridder_direct_grid",
    [(.handle "GridderDirect", "plan"), (.handle "Mem", "vis"), (.handle "Mem", "uvws"),
     (.handle "Mem", "start_chs"), (.handle "Mem", "end_chs"), (.f64, "freq0_hz"),
     (.f64, "dfreq_hz"), (.handle "Mem", "subgrid_image"), (.i32, "subgrid_offset_u"),
     (.i32, "subgrid_offset_v"), (.i32, "subgrid_offset_w"), (.err, "status")],
    none,
    [.handle "GridderDirect", .handle "Mem", .handle "Mem", .handle "Mem", .handle "Mem", .f64,
     .f64, .handle "Mem", .i32, .i32, .i32],
    none, true⟩

/-- src/ska-sdp-func/grid_data/sdp_gridder_direct.h:171-178 and src/ska_sdp_func/grid_data/gridder_direct.py:331-342. -/
def sdp_gridder_direct_grid_correct : Func := ⟨"sdp_gridder_direct_grid_correct",
    [(.handle "GridderDirect", "plan"), (.handle "Mem", "facet"), (.i32, "facet_offset_l"),
     (.i32, "facet_offset_m"), (.i32, "w_offset"), (.err, "status")],
    none,
    [.handle "GridderDirect", .handle "Mem", .i32, .i32, .i32],
    none, true⟩

/-- src/ska-sdp-func/grid_data/sdp_gridder_direct.h:193-193 and src/ska_sdp_func/grid_data/gridder_direct.py:350-354. -/
def sdp_gridder_direct_image_size : Func := ⟨"sdp_gridder_direct_image_size",
    [(.handle "GridderDirect", "plan")],
    some .i32,
    [.handle "GridderDirect"],
    some .i32, false⟩

/-- src/ska-sdp-func/grid_data/sdp_gridder_direct.h:201-201 and src/ska_sdp_func/grid_data/gridder_direct.py:356-360. -/
def sdp_gridder_direct_shear_u : Func := ⟨"sdp_gridder_direct_shear_u",
    [(.handle "GridderDirect", "plan")],
    some .f64,
    [.handle "GridderDirect"],
    some .f64, false⟩

/-- src/ska-sdp-func/grid_data/sdp_gridder_direct.h:209-209 and src/ska_sdp_func/grid_data/gridder_direct.py:362-366. -/
def sdp_gridder_direct_shear_v : Func := ⟨"sdp_gridder_direct_shear_v",
    [(.handle "GridderDirect", "plan")],
    some .f64,
    [.handle "GridderDirect"],
    some .f64, false⟩

/-- src/ska-sdp-func/grid_data/sdp_gridder_direct.h:217-217 and src/ska_sdp_func/grid_data/gridder_direct.py:368-372. -/
def sdp_gridder_direct_subgrid_size : Func := ⟨"sdp_gridder_direct_subgrid_size",
    [(.handle "GridderDirect", "plan")],
    some .i32,
    [.handle "GridderDirect"],
    some .i32, false⟩

/-- src/ska-sdp-func/grid_data/sdp_gridder_direct.h:225-225 and src/ska_sdp_func/grid_data/gridder_direct.py:374-378. -/
def sdp_gridder_direct_support : Func := ⟨"sdp_gridder_direct_support",
    [(.handle "GridderDirect", "plan")],
    some .i32,
    [.handle "GridderDirect"],
    some .i32, false⟩

/-- src/ska-sdp-func/grid_data/sdp_gridder_direct.h:233-233 and src/ska_sdp_func/grid_data/gridder_direct.py:380-384. -/
def sdp_gridder_direct_theta : Func := ⟨"sdp_gridder_direct_theta",
    [(.handle "GridderDirect", "plan")],
    some .f64,
    [.handle "GridderDirect"],
    some .f64, false⟩

/-- src/ska-sdp-func/grid_data/sdp_gridder_direct.h:241-241 and src/ska_sdp_func/grid_data/gridder_direct.py:386-390. -/
def sdp_gridder_direct_w_step : Func := ⟨"sdp_gridder_direct_w_step",
    [(.handle "GridderDirect", "plan")],
    some .f64,
    [.handle "GridderDirect"],
    some .f64, false⟩

/-- src/ska-sdp-func/grid_data/sdp_gridder_clamp_channels.h:42-56 and src/ska_sdp_func/grid_data/gridder_utils.py:389-407. -/
def sdp_gridder_clamp_channels_single : Func := ⟨"sdp_gridder_clamp_channels_single",
    [(.handle "Mem", "uvws"), (.i32, "dim"), (.f64, "freq0_hz"), (.f64, "dfreq_hz"),
     (.handle "Mem", "start_ch_in"), (.handle "Mem", "end_ch_in"), (.f64, "min_u"),
     (.f64, "max_u"), (.handle "Mem", "start_ch_out"), (.handle "Mem", "end_ch_out"),
     (.i64, "start_row"), (.i64, "end_row"), (.err, "status")],
    none,
    [.handle "Mem", .i32, .f64, .f64, .handle "Mem", .handle "Mem", .f64, .f64, .handle "Mem",
     .handle "Mem", .i64, .i64],
    none, true⟩

/-- src/ska-sdp-func/grid_data/sdp_gridder_clamp_channels.h:79-94 and src/ska_sdp_func/grid_data/gridder_utils.py:409-428. -/
def sdp_gridder_clamp_channels_uv : Func := ⟨"sdp_gridder_clamp_channels_uv",
    [(.handle "Mem", "uvws"), (.f64, "freq0_hz"), (.f64, "dfreq_hz"),
     (.handle "Mem", "start_ch_in"), (.handle "Mem", "end_ch_in"), (.f64, "min_u"),
     (.f64, "max_u"), (.f64, "min_v"), (.f64, "max_v"), (.handle "Mem", "start_ch_out"),
     (.handle "Mem", "end_ch_out"), (.i64, "start_row"), (.i64, "end_row"), (.err, "status")],
    none,
    [.handle "Mem", .f64, .f64, .handle "Mem", .handle "Mem", .f64, .f64, .f64, .f64,
     .handle "Mem", .handle "Mem", .i64, .i64],
    none, true⟩

/-- src/ska-sdp-func/grid_data/sdp_gridder_wtower_height.h:42-58 and src/ska_sdp_func/grid_data/gridder_utils.py:443-463. -/
def sdp_gridder_determine_max_w_tower_height : Func := ⟨"sdp_gridder_determine_max_w_tower_height",
    [(.i32, "image_size"), (.i32, "subgrid_size"), (.f64, "theta"), (.f64, "w_step"),
     (.f64, "shear_u"), (.f64, "shear_v"), (.i32, "support"), (.i32, "oversampling"),
     (.i32, "w_support"), (.i32, "w_oversampling"), (.f64, "fov"), (.f64, "subgrid_frac"),
     (.i32, "num_samples"), (.f64, "target_err"), (.err, "status")],
    some .f64,
    [.i32, .i32, .f64, .f64, .f64, .f64, .i32, .i32, .i32, .i32, .f64, .f64, .i32, .f64],
    some .f64, true⟩

/-- src/ska-sdp-func/grid_data/sdp_gridder_utils.h:69-75 and src/ska_sdp_func/grid_data/gridder_utils.py:430-441. -/
def sdp_gridder_determine_w_step : Func := ⟨"sdp_gridder_determine_w_step",
    [(.f64, "theta"), (.f64, "fov"), (.f64, "shear_u"), (.f64, "shear_v"), (.f64, "x0")],
    some .f64,
    [.f64, .f64, .f64, .f64, .f64],
    some .f64, false⟩

/-- src/ska-sdp-func/grid_data/sdp_gridder_utils.h:204-208 and src/ska_sdp_func/grid_data/gridder_utils.py:465-470. -/
def sdp_gridder_make_kernel : Func := ⟨"sdp_gridder_make_kernel",
    [(.handle "Mem", "window"), (.handle "Mem", "kernel"), (.err, "status")],
    none,
    [.handle "Mem", .handle "Mem"],
    none, true⟩

/-- src/ska-sdp-func/grid_data/sdp_gridder_utils.h:221-225 and src/ska_sdp_func/grid_data/gridder_utils.py:472-477. -/
def sdp_gridder_make_pswf_kernel : Func := ⟨"sdp_gridder_make_pswf_kernel",
    [(.i32, "support"), (.handle "Mem", "kernel"), (.err, "status")],
    none,
    [.i32, .handle "Mem"],
    none, true⟩

/-- src/ska-sdp-func/grid_data/sdp_gridder_utils.h:240-248 and src/ska_sdp_func/grid_data/gridder_utils.py:479-491. -/
def sdp_gridder_make_w_pattern : Func := ⟨"sdp_gridder_make_w_pattern",
    [(.i32, "subgrid_size"), (.f64, "theta"), (.f64, "shear_u"), (.f64, "shear_v"),
     (.f64, "w_step"), (.handle "Mem", "w_pattern"), (.err, "status")],
    none,
    [.i32, .f64, .f64, .f64, .f64, .handle "Mem"],
    none, true⟩

/-- src/ska-sdp-func/grid_data/sdp_gridder_utils.h:276-280 and src/ska_sdp_func/grid_data/gridder_utils.py:493-501. -/
def sdp_gridder_rms_diff : Func := ⟨"sdp_gridder_rms_diff",
    [(.handle "Mem", "a"), (.handle "Mem", "b"), (.err, "status")],
    some .f64,
    [.handle "Mem", .handle "Mem"],
    some .f64, true⟩

/-- src/ska-sdp-func/grid_data/sdp_gridder_utils.h:322-329 and src/ska_sdp_func/grid_data/gridder_utils.py:503-514. -/
def sdp_gridder_subgrid_add : Func := ⟨"sdp_gridder_subgrid_add",
    [(.handle "Mem", "grid"), (.i32, "offset_u"), (.i32, "offset_v"), (.handle "Mem", "subgrid"),
     (.f64, "factor"), (.err, "status")],
    none,
    [.handle "Mem", .i32, .i32, .handle "Mem", .f64],
    none, true⟩

/-- src/ska-sdp-func/grid_data/sdp_gridder_utils.h:340-346 and src/ska_sdp_func/grid_data/gridder_utils.py:516-526. -/
def sdp_gridder_subgrid_cut_out : Func := ⟨"sdp_gridder_subgrid_cut_out",
    [(.handle "Mem", "grid"), (.i32, "offset_u"), (.i32, "offset_v"), (.handle "Mem", "subgrid"),
     (.err, "status")],
    none,
    [.handle "Mem", .i32, .i32, .handle "Mem"],
    none, true⟩

/-- src/ska-sdp-func/grid_data/sdp_gridder_utils.h:379-388 and src/ska_sdp_func/grid_data/gridder_utils.py:528-541. -/
def sdp_gridder_uvw_bounds_all : Func := ⟨"sdp_gridder_uvw_bounds_all",
    [(.handle "Mem", "uvws"), (.f64, "freq0_hz"), (.f64, "dfreq_hz"), (.handle "Mem", "start_chs"),
     (.handle "Mem", "end_chs"), (.pf64, "uvw_min"), (.pf64, "uvw_max"), (.err, "status")],
    none,
    [.handle "Mem", .f64, .f64, .handle "Mem", .handle "Mem", .pf64, .pf64],
    none, true⟩

/-- src/ska-sdp-func/grid_data/sdp_gridder_uvw_es_fft.h:42-55 and src/ska_sdp_func/grid_data/gridder_uvw_es_fft.py:149-166. -/
def sdp_gridder_uvw_es_fft_create_plan : Func := ⟨"sdp_gridder_uvw_es_fft_create_plan",
    [(.handle "Mem", "uvw"), (.handle "Mem", "freq_hz"), (.handle "Mem", "vis"),
     (.handle "Mem", "weight"), (.handle "Mem", "dirty_image"), (.f64, "pixel_size_x_rad"),
     (.f64, "pixel_size_y_rad"), (.f64, "epsilon"), (.f64, "min_abs_w"), (.f64, "max_abs_w"),
     (.i32, "do_w_stacking"), (.err, "status")],
    some (.handle "GridderUvwEsFft"),
    [.handle "Mem", .handle "Mem", .handle "Mem", .handle "Mem", .handle "Mem", .f64, .f64, .f64,
     .f64, .f64, .i32],
    some (.handle "GridderUvwEsFft"), true⟩

/-- src/ska-sdp-func/grid_data/sdp_gridder_uvw_es_fft.h:110-110 and src/ska_sdp_func/grid_data/gridder_uvw_es_fft.py:168-172. -/
def sdp_gridder_uvw_es_fft_free_plan : Func := ⟨"sdp_gridder_uvw_es_fft_free_plan",
    [(.handle "GridderUvwEsFft", "plan")],
    none,
    [.handle "GridderUvwEsFft"],
    none, false⟩

/-- src/ska-sdp-func/grid_data/sdp_gridder_uvw_es_fft.h:71-79 and src/ska_sdp_func/grid_data/gridder_uvw_es_fft.py:174-186. -/
def sdp_grid_uvw_es_fft : Func := ⟨"sdp_grid_uvw_es_fft",
    [(.handle "GridderUvwEsFft", "plan"), (.handle "Mem", "uvw"), (.handle "Mem", "freq_hz"),
     (.handle "Mem", "vis"), (.handle "Mem", "weight"), (.handle "Mem", "dirty_image"),
     (.err, "status")],
    none,
    [.handle "GridderUvwEsFft", .handle "Mem", .handle "Mem", .handle "Mem", .handle "Mem",
     .handle "Mem"],
    none, true⟩

/-- src/ska-sdp-func/grid_data/sdp_gridder_uvw_es_fft.h:95-103 and src/ska_sdp_func/grid_data/gridder_uvw_es_fft.py:188-200. -/
def sdp_ifft_degrid_uvw_es : Func := ⟨"sdp_ifft_degrid_uvw_es",
    [(.handle "GridderUvwEsFft", "plan"), (.handle "Mem", "uvw"), (.handle "Mem", "freq_hz"),
     (.handle "Mem", "vis"), (.handle "Mem", "weight"), (.handle "Mem", "dirty_image"),
     (.err, "status")],
    none,
    [.handle "GridderUvwEsFft", .handle "Mem", .handle "Mem", .handle "Mem", .handle "Mem",
     .handle "Mem"],
    none, true⟩

/-- src/ska-sdp-func/grid_data/sdp_gridder_wtower_uvw.h:59-71 and src/ska_sdp_func/grid_data/gridder_wtower_uvw.py:425-441. -/
def sdp_gridder_wtower_uvw_create : Func := ⟨"sdp_gridder_wtower_uvw_create",
    [(.i32, "image_size"), (.i32, "subgrid_size"), (.f64, "theta"), (.f64, "w_step"),
     (.f64, "shear_u"), (.f64, "shear_v"), (.i32, "support"), (.i32, "oversampling"),
     (.i32, "w_support"), (.i32, "w_oversampling"), (.err, "status")],
    some (.handle "GridderWtowerUVW"),
    [.i32, .i32, .f64, .f64, .f64, .f64, .i32, .i32, .i32, .i32],
    some (.handle "GridderWtowerUVW"), true⟩

/-- src/ska-sdp-func/grid_data/sdp_gridder_wtower_uvw.h:194-194 and src/ska_sdp_func/grid_data/gridder_wtower_uvw.py:511-515. -/
def sdp_gridder_wtower_uvw_free : Func := ⟨"sdp_gridder_wtower_uvw_free",
    [(.handle "GridderWtowerUVW", "plan")],
    none,
    [.handle "GridderWtowerUVW"],
    none, false⟩

/-- src/ska-sdp-func/grid_data/sdp_gridder_wtower_uvw.h:95-110 and src/ska_sdp_func/grid_data/gridder_wtower_uvw.py:443-462. -/
def sdp_gridder_wtower_uvw_degrid : Func := ⟨"sdp_gridder_wtower_uvw_degrid",
    [(.handle "GridderWtowerUVW", "plan"), (.handle "Mem", "subgrid_image"),
     (.i32, "subgrid_offset_u"), (.i32, "subgrid_offset_v"), (.i32, "subgrid_offset_w"),
     (.f64, "freq0_hz"), (.f64, "dfreq_hz"), (.handle "Mem", "uvws"), (.handle "Mem", "start_chs"),
     (.handle "Mem", "end_chs"), (.handle "Mem", "vis"), (.i64, "start_row"), (.i64, "end_row"),
     (.err, "status")],
    none,
    [.handle "GridderWtowerUVW", .handle "Mem", .i32, .i32, .i32, .f64, .f64, .handle "Mem",
     .handle "Mem", .handle "Mem", .handle "Mem", .i64, .i64],
    none, true⟩

/-- src/ska-sdp-func/grid_data/sdp_gridder_wtower_uvw.h:122-129 and src/ska_sdp_func/grid_data/gridder_wtower_uvw.py:464-475. -/
def sdp_gridder_wtower_uvw_degrid_correct : Func := ⟨"sdp_gridder_wtower_uvw_degrid_correct",
    [(.handle "GridderWtowerUVW", "plan"), (.handle "Mem", "facet"), (.i32, "facet_offset_l"),
     (.i32, "facet_offset_m"), (.i32, "w_offset"), (.err, "status")],
    none,
    [.handle "GridderWtowerUVW", .handle "Mem", .i32, .i32, .i32],
    none, true⟩

/-- src/ska-sdp-func/grid_data/sdp_gridder_wtower_uvw.h:153-168 and src/ska_sdp_func/grid_data/gridder_wtower_uvw.py:477-496. -/
def sdp_gridder_wtower_uvw_grid : Func := ⟨"sdp_gridder_wtower_uvw_grid",
    [(.handle "GridderWtowerUVW", "plan"), (.handle "Mem", "vis"), (.handle "Mem", "uvws"),
     (.handle "Mem", "start_chs"), (.handle "Mem", "end_chs"), (.f64, "freq0_hz"),
     (.f64, "dfreq_hz"), (.handle "Mem", "subgrid_image"), (.i32, "subgrid_offset_u"),
     (.i32, "subgrid_offset_v"), (.i32, "subgrid_offset_w"), (.i64, "start_row"),
     (.i64, "end_row"), (.err, "status")],
    none,
    [.handle "GridderWtowerUVW", .handle "Mem", .handle "Mem", .handle "Mem", .handle "Mem", .f64,
     .f64, .handle "Mem", .i32, .i32, .i32, .i64, .i64],
    none, true⟩

/-- src/ska-sdp-func/grid_data/sdp_gridder_wtower_uvw.h:180-187 and src/ska_sdp_func/grid_data/gridder_wtower_uvw.py:498-509. -/
def sdp_gridder_wtower_uvw_grid_correct : Func := ⟨"sdp_gridder_wtower_uvw_grid_correct",
    [(.handle "GridderWtowerUVW", "plan"), (.handle "Mem", "facet"), (.i32, "facet_offset_l"),
     (.i32, "facet_offset_m"), (.i32, "w_offset"), (.err, "status")],
    none,
    [.handle "GridderWtowerUVW", .handle "Mem", .i32, .i32, .i32],
    none, true⟩

/-- src/ska-sdp-func/grid_data/sdp_gridder_wtower_uvw.h:213-213 and src/ska_sdp_func/grid_data/gridder_wtower_uvw.py:517-521. -/
def sdp_gridder_wtower_uvw_image_size : Func := ⟨"sdp_gridder_wtower_uvw_image_size",
    [(.handle "GridderWtowerUVW", "plan")],
    some .i32,
    [.handle "GridderWtowerUVW"],
    some .i32, false⟩

/-- src/ska-sdp-func/grid_data/sdp_gridder_wtower_uvw.h:221-221 and src/ska_sdp_func/grid_data/gridder_wtower_uvw.py:523-527. -/
def sdp_gridder_wtower_uvw_oversampling : Func := ⟨"sdp_gridder_wtower_uvw_oversampling",
    [(.handle "GridderWtowerUVW", "plan")],
    some .i32,
    [.handle "GridderWtowerUVW"],
    some .i32, false⟩

/-- src/ska-sdp-func/grid_data/sdp_gridder_wtower_uvw.h:229-229 and src/ska_sdp_func/grid_data/gridder_wtower_uvw.py:529-533. -/
def sdp_gridder_wtower_uvw_shear_u : Func := ⟨"sdp_gridder_wtower_uvw_shear_u",
    [(.handle "GridderWtowerUVW", "plan")],
    some .f64,
    [.handle "GridderWtowerUVW"],
    some .f64, false⟩

/-- src/ska-sdp-func/grid_data/sdp_gridder_wtower_uvw.h:237-237 and src/ska_sdp_func/grid_data/gridder_wtower_uvw.py:535-539. -/
def sdp_gridder_wtower_uvw_shear_v : Func := ⟨"sdp_gridder_wtower_uvw_shear_v",
    [(.handle "GridderWtowerUVW", "plan")],
    some .f64,
    [.handle "GridderWtowerUVW"],
    some .f64, false⟩

/-- src/ska-sdp-func/grid_data/sdp_gridder_wtower_uvw.h:245-245 and src/ska_sdp_func/grid_data/gridder_wtower_uvw.py:541-545. -/
def sdp_gridder_wtower_uvw_subgrid_size : Func := ⟨"sdp_gridder_wtower_uvw_subgrid_size",
    [(.handle "GridderWtowerUVW", "plan")],
    some .i32,
    [.handle "GridderWtowerUVW"],
    some .i32, false⟩

/-- src/ska-sdp-func/grid_data/sdp_gridder_wtower_uvw.h:253-253 and src/ska_sdp_func/grid_data/gridder_wtower_uvw.py:547-551. -/
def sdp_gridder_wtower_uvw_support : Func := ⟨"sdp_gridder_wtower_uvw_support",
    [(.handle "GridderWtowerUVW", "plan")],
    some .i32,
    [.handle "GridderWtowerUVW"],
    some .i32, false⟩

/-- src/ska-sdp-func/grid_data/sdp_gridder_wtower_uvw.h:261-261 and src/ska_sdp_func/grid_data/gridder_wtower_uvw.py:553-557. -/
def sdp_gridder_wtower_uvw_theta : Func := ⟨"sdp_gridder_wtower_uvw_theta",
    [(.handle "GridderWtowerUVW", "plan")],
    some .f64,
    [.handle "GridderWtowerUVW"],
    some .f64, false⟩

/-- src/ska-sdp-func/grid_data/sdp_gridder_wtower_uvw.h:269-269 and src/ska_sdp_func/grid_data/gridder_wtower_uvw.py:559-563. -/
def sdp_gridder_wtower_uvw_w_oversampling : Func := ⟨"sdp_gridder_wtower_uvw_w_oversampling",
    [(.handle "GridderWtowerUVW", "plan")],
    some .i32,
    [.handle "GridderWtowerUVW"],
    some .i32, false⟩

/-- src/ska-sdp-func/grid_data/sdp_gridder_wtower_uvw.h:277-277 and src/ska_sdp_func/grid_data/gridder_wtower_uvw.py:565-569. -/
def sdp_gridder_wtower_uvw_w_step : Func := ⟨"sdp_gridder_wtower_uvw_w_step",
    [(.handle "GridderWtowerUVW", "plan")],
    some .f64,
    [.handle "GridderWtowerUVW"],
    some .f64, false⟩

/-- src/ska-sdp-func/grid_data/sdp_gridder_wtower_uvw.h:285-285 and src/ska_sdp_func/grid_data/gridder_wtower_uvw.py:571-575. -/
def sdp_gridder_wtower_uvw_w_support : Func := ⟨"sdp_gridder_wtower_uvw_w_support",
    [(.handle "GridderWtowerUVW", "plan")],
    some .i32,
    [.handle "GridderWtowerUVW"],
    some .i32, false⟩

/-- src/ska-sdp-func/numeric_functions/sdp_fft_convolution.h:25-30 and src/ska_sdp_func/numeric_functions/fft_convolution.py:5-10. -/
def sdp_fft_convolution : Func := ⟨"sdp_fft_convolution",
    [(.handle "Mem", "in1"), (.handle "Mem", "in2"), (.handle "Mem", "out"), (.err, "status")],
    none,
    [.handle "Mem", .handle "Mem", .handle "Mem"],
    none, true⟩

/-- src/ska-sdp-func/station_beam/sdp_element_dipole.h:39-49 and src/ska_sdp_func/station_beam/element.py:9-23. -/
def sdp_element_beam_dipole : Func := ⟨"sdp_element_beam_dipole",
    [(.i32, "num_points"), (.handle "Mem", "theta_rad"), (.handle "Mem", "phi_rad"),
     (.f64, "freq_hz"), (.f64, "dipole_length_m"), (.i32, "stride_element_beam"),
     (.i32, "index_offset_element_beam"), (.handle "Mem", "element_beam"), (.err, "status")],
    none,
    [.i32, .handle "Mem", .handle "Mem", .f64, .f64, .i32, .i32, .handle "Mem"],
    none, true⟩

/-- src/ska-sdp-func/station_beam/sdp_element_spherical_wave_harp.h:39-49 and src/ska_sdp_func/station_beam/element.py:25-39. -/
def sdp_element_beam_spherical_wave_harp : Func := ⟨"sdp_element_beam_spherical_wave_harp",
    [(.i32, "num_points"), (.handle "Mem", "theta_rad"), (.handle "Mem", "phi_x_rad"),
     (.handle "Mem", "phi_y_rad"), (.i32, "l_max"), (.handle "Mem", "coeffs"),
     (.i32, "index_offset_element_beam"), (.handle "Mem", "element_beam"), (.err, "status")],
    none,
    [.i32, .handle "Mem", .handle "Mem", .handle "Mem", .i32, .handle "Mem", .i32, .handle "Mem"],
    none, true⟩

/-- src/ska-sdp-func/station_beam/sdp_station.h:121-140 and src/ska_sdp_func/station_beam/station.py:9-32. -/
def sdp_station_beam_aperture_array : Func := ⟨"sdp_station_beam_aperture_array",
    [(.f64, "wavenumber"), (.handle "Mem", "element_weights"), (.handle "Mem", "element_x"),
     (.handle "Mem", "element_y"), (.handle "Mem", "element_z"), (.i32, "index_offset_points"),
     (.i32, "num_points"), (.handle "Mem", "point_x"), (.handle "Mem", "point_y"),
     (.handle "Mem", "point_z"), (.handle "Mem", "element_beam_index"),
     (.handle "Mem", "element_beam"), (.i32, "index_offset_station_beam"),
     (.handle "Mem", "station_beam"), (.i32, "normalise"), (.i32, "eval_x"), (.i32, "eval_y"),
     (.err, "status")],
    none,
    [.f64, .handle "Mem", .handle "Mem", .handle "Mem", .handle "Mem", .i32, .i32, .handle "Mem",
     .handle "Mem", .handle "Mem", .handle "Mem", .handle "Mem", .i32, .handle "Mem", .i32, .i32,
     .i32],
    none, true⟩

/-- src/ska-sdp-func/utility/sdp_sky_coord.h:65-65 and src/ska_sdp_func/utility/sky_coord.py:111-115. -/
def sdp_sky_coord_free : Func := ⟨"sdp_sky_coord_free",
    [(.handle "SkyCoord", "sky_coord")],
    none,
    [.handle "SkyCoord"],
    none, false⟩

/-- src/ska-sdp-func/utility/sdp_sky_coord.h:73-73 and src/ska_sdp_func/utility/sky_coord.py:117-121. -/
def sdp_sky_coord_epoch : Func := ⟨"sdp_sky_coord_epoch",
    [(.handle "SkyCoord", "sky_coord")],
    some .f64,
    [.handle "SkyCoord"],
    some .f64, false⟩

/-- src/ska-sdp-func/utility/sdp_sky_coord.h:98-98 and src/ska_sdp_func/utility/sky_coord.py:123-127. -/
def sdp_sky_coord_value : Func := ⟨"sdp_sky_coord_value",
    [(.handle "SkyCoord", "sky_coord"), (.i32, "dim")],
    some .f64,
    [.handle "SkyCoord", .i32],
    some .f64, false⟩

/-- src/ska-sdp-func/utility/sdp_sky_coord.h:81-81 and src/ska_sdp_func/utility/sky_coord.py:129-136. -/
def sdp_sky_coord_set_epoch : Func := ⟨"sdp_sky_coord_set_epoch",
    [(.handle "SkyCoord", "sky_coord"), (.f64, "epoch")],
    none,
    [.handle "SkyCoord", .f64],
    none, false⟩

/-- src/ska-sdp-func/utility/sdp_sky_coord.h:89-89 and src/ska_sdp_func/utility/sky_coord.py:138-142. -/
def sdp_sky_coord_type : Func := ⟨"sdp_sky_coord_type",
    [(.handle "SkyCoord", "sky_coord")],
    some .str,
    [.handle "SkyCoord"],
    some .str, false⟩

/-- src/ska-sdp-func/visibility/sdp_dft.h:53-59 and src/ska_sdp_func/visibility/dft.py:9-19. -/
def sdp_dft_point_v00 : Func := ⟨"sdp_dft_point_v00",
    [(.handle "Mem", "source_directions"), (.handle "Mem", "source_fluxes"),
     (.handle "Mem", "uvw_lambda"), (.handle "Mem", "vis"), (.err, "status")],
    none,
    [.handle "Mem", .handle "Mem", .handle "Mem", .handle "Mem"],
    none, true⟩

/-- src/ska-sdp-func/visibility/sdp_dft.h:89-97 and src/ska_sdp_func/visibility/dft.py:22-34. -/
def sdp_dft_point_v01 : Func := ⟨"sdp_dft_point_v01",
    [(.handle "Mem", "source_directions"), (.handle "Mem", "source_fluxes"),
     (.handle "Mem", "uvw"), (.f64, "channel_start_hz"), (.f64, "channel_step_hz"),
     (.handle "Mem", "vis"), (.err, "status")],
    none,
    [.handle "Mem", .handle "Mem", .handle "Mem", .f64, .f64, .handle "Mem"],
    none, true⟩

/-- src/ska-sdp-func/visibility/sdp_flagger.h:53-64 and src/ska_sdp_func/visibility/flagger.py:10-25. -/
def sdp_flagger_dynamic_threshold : Func := ⟨"sdp_flagger_dynamic_threshold",
    [(.handle "Mem", "vis"), (.handle "Mem", "flags"), (.f64, "alpha"),
     (.f64, "threshold_magnitudes"), (.f64, "threshold_variations"), (.f64, "threshold_broadband"),
     (.i32, "sampling_step"), (.i32, "window"), (.i32, "window_median_history"), (.err, "status")],
    none,
    [.handle "Mem", .handle "Mem", .f64, .f64, .f64, .f64, .i32, .i32, .i32],
    none, true⟩

/-- src/ska-sdp-func/visibility/sdp_opt_weighting.h:80-96 and src/ska_sdp_func/visibility/opt_weighting.py:9-29. -/
def sdp_optimized_weighting : Func := ⟨"sdp_optimized_weighting",
    [(.handle "Mem", "uvw"), (.handle "Mem", "freqs"), (.handle "Mem", "vis"),
     (.handle "Mem", "weights"), (.f64, "robust_param"), (.i32, "grid_size"), (.i64, "support"),
     (.handle "Mem", "sorted_uu"), (.handle "Mem", "sorted_vv"), (.handle "Mem", "sorted_weight"),
     (.handle "Mem", "sorted_tile"), (.handle "Mem", "tile_offsets"),
     (.handle "Mem", "num_points_in_tiles"), (.handle "Mem", "output_weights"), (.err, "status")],
    none,
    [.handle "Mem", .handle "Mem", .handle "Mem", .handle "Mem", .f64, .i32, .i64, .handle "Mem",
     .handle "Mem", .handle "Mem", .handle "Mem", .handle "Mem", .handle "Mem", .handle "Mem"],
    none, true⟩

/-- src/ska-sdp-func/visibility/sdp_opt_weighting.h:153-170 and src/ska_sdp_func/visibility/opt_weighting.py:31-52. -/
def sdp_optimised_indexed_weighting : Func := ⟨"sdp_optimised_indexed_weighting",
    [(.handle "Mem", "uvw"), (.handle "Mem", "vis"), (.handle "Mem", "weights"),
     (.f64, "robust_param"), (.i32, "grid_size"), (.f64, "cell_size_rad"), (.i64, "support"),
     (.pi32, "num_visibilites"), (.handle "Mem", "sorted_tile"), (.handle "Mem", "sorted_uu"),
     (.handle "Mem", "sorted_vv"), (.handle "Mem", "sorted_vis_index"),
     (.handle "Mem", "tile_offsets"), (.handle "Mem", "num_points_in_tiles"),
     (.handle "Mem", "output_weights"), (.err, "status")],
    none,
    [.handle "Mem", .handle "Mem", .handle "Mem", .f64, .i32, .f64, .i64, .pi32, .handle "Mem",
     .handle "Mem", .handle "Mem", .handle "Mem", .handle "Mem", .handle "Mem", .handle "Mem"],
    none, true⟩

/-- src/ska-sdp-func/visibility/sdp_phase_rotate.h:41-47 and src/ska_sdp_func/visibility/phase_rotate.py:9-19. -/
def sdp_phase_rotate_uvw : Func := ⟨"sdp_phase_rotate_uvw",
    [(.handle "SkyCoord", "phase_centre_orig"), (.handle "SkyCoord", "phase_centre_new"),
     (.handle "Mem", "uvw_in"), (.handle "Mem", "uvw_out"), (.err, "status")],
    none,
    [.handle "SkyCoord", .handle "SkyCoord", .handle "Mem", .handle "Mem"],
    none, true⟩

/-- src/ska-sdp-func/visibility/sdp_phase_rotate.h:75-84 and src/ska_sdp_func/visibility/phase_rotate.py:22-35. -/
def sdp_phase_rotate_vis : Func := ⟨"sdp_phase_rotate_vis",
    [(.handle "SkyCoord", "phase_centre_orig"), (.handle "SkyCoord", "phase_centre_new"),
     (.f64, "channel_start_hz"), (.f64, "channel_step_hz"), (.handle "Mem", "uvw"),
     (.handle "Mem", "vis_in"), (.handle "Mem", "vis_out"), (.err, "status")],
    none,
    [.handle "SkyCoord", .handle "SkyCoord", .f64, .f64, .handle "Mem", .handle "Mem",
     .handle "Mem"],
    none, true⟩

/-- src/ska-sdp-func/visibility/sdp_tiled_functions.h:62-76 and src/ska_sdp_func/visibility/tiled_functions.py:9-27. -/
def sdp_count_and_prefix_sum : Func := ⟨"sdp_count_and_prefix_sum",
    [(.handle "Mem", "uvw"), (.handle "Mem", "freqs"), (.handle "Mem", "vis"), (.i32, "grid_size"),
     (.i64, "tile_size_u"), (.i64, "tile_size_v"), (.f64, "cell_size_rad"), (.i64, "support"),
     (.pi32, "num_visibilites"), (.handle "Mem", "tile_offsets"),
     (.handle "Mem", "num_points_in_tiles"), (.handle "Mem", "num_skipped"), (.err, "status")],
    none,
    [.handle "Mem", .handle "Mem", .handle "Mem", .i32, .i64, .i64, .f64, .i64, .pi32,
     .handle "Mem", .handle "Mem", .handle "Mem"],
    none, true⟩

/-- src/ska-sdp-func/visibility/sdp_tiled_functions.h:136-153 and src/ska_sdp_func/visibility/tiled_functions.py:29-50. -/
def sdp_bucket_sort : Func := ⟨"sdp_bucket_sort",
    [(.handle "Mem", "uvw"), (.handle "Mem", "freqs"), (.handle "Mem", "vis"),
     (.handle "Mem", "weights"), (.i32, "grid_size"), (.i64, "tile_size_u"), (.i64, "tile_size_v"),
     (.f64, "cell_size_rad"), (.i64, "support"), (.handle "Mem", "sorted_uu"),
     (.handle "Mem", "sorted_vv"), (.handle "Mem", "sorted_weight"),
     (.handle "Mem", "sorted_tile"), (.handle "Mem", "sorted_vis"),
     (.handle "Mem", "tile_offsets"), (.err, "status")],
    none,
    [.handle "Mem", .handle "Mem", .handle "Mem", .handle "Mem", .i32, .i64, .i64, .f64, .i64,
     .handle "Mem", .handle "Mem", .handle "Mem", .handle "Mem", .handle "Mem", .handle "Mem"],
    none, true⟩

/-- src/ska-sdp-func/visibility/sdp_tiled_functions.h:200-217 and src/ska_sdp_func/visibility/tiled_functions.py:52-73. -/
def sdp_tiled_indexing : Func := ⟨"sdp_tiled_indexing",
    [(.handle "Mem", "uvw"), (.handle "Mem", "freqs"), (.i32, "grid_size"), (.i64, "tile_size_u"),
     (.i64, "tile_size_v"), (.f64, "cell_size_rad"), (.i64, "support"), (.i64, "num_channels"),
     (.i64, "num_baselines"), (.i64, "num_times"), (.handle "Mem", "sorted_tile"),
     (.handle "Mem", "sorted_uu"), (.handle "Mem", "sorted_vv"),
     (.handle "Mem", "sorted_vis_index"), (.handle "Mem", "tile_offsets"), (.err, "status")],
    none,
    [.handle "Mem", .handle "Mem", .i32, .i64, .i64, .f64, .i64, .i64, .i64, .i64, .handle "Mem",
     .handle "Mem", .handle "Mem", .handle "Mem", .handle "Mem"],
    none, true⟩

/-- src/ska-sdp-func/visibility/sdp_weighting.h:59-68 and src/ska_sdp_func/visibility/weighting.py:11-24. -/
def sdp_weighting_briggs : Func := ⟨"sdp_weighting_briggs",
    [(.handle "Mem", "uvw"), (.handle "Mem", "freq_hz"), (.f64, "max_abs_uv"),
     (.f64, "robust_param"), (.handle "Mem", "weight_grid_uv"), (.handle "Mem", "input_weights"),
     (.handle "Mem", "output_weights"), (.err, "status")],
    none,
    [.handle "Mem", .handle "Mem", .f64, .f64, .handle "Mem", .handle "Mem", .handle "Mem"],
    none, true⟩

/-- src/ska-sdp-func/visibility/sdp_weighting.h:70-78 and src/ska_sdp_func/visibility/weighting.py:26-38. -/
def sdp_weighting_uniform : Func := ⟨"sdp_weighting_uniform",
    [(.handle "Mem", "uvw"), (.handle "Mem", "freq_hz"), (.f64, "max_abs_uv"),
     (.handle "Mem", "weight_grid_uv"), (.handle "Mem", "input_weights"),
     (.handle "Mem", "output_weights"), (.err, "status")],
    none,
    [.handle "Mem", .handle "Mem", .f64, .handle "Mem", .handle "Mem", .handle "Mem"],
    none, true⟩

/-- src/ska-sdp-func/fourier_transforms/sdp_swiftly.h:47-53 and src/ska_sdp_func/fourier_transforms/swiftly.py:139-146. -/
def sdp_swiftly_create : Func := ⟨"sdp_swiftly_create",
    [(.i64, "image_size"), (.i64, "yN_size"), (.i64, "xM_size"), (.f64, "W"), (.err, "status")],
    some (.handle "SwiFTly"),
    [.i64, .i64, .i64, .f64],
    some (.handle "SwiFTly"), true⟩

/-- src/ska-sdp-func/fourier_transforms/sdp_swiftly.h:81-81 and src/ska_sdp_func/fourier_transforms/swiftly.py:154-155. -/
def sdp_swiftly_free : Func := ⟨"sdp_swiftly_free",
    [(.handle "SwiFTly", "swiftly")],
    none,
    [.handle "SwiFTly"],
    none, false⟩

/-- src/ska-sdp-func/utility/sdp_mem.h:168-176 and src/ska_sdp_func/utility/mem.py:124-136. -/
def sdp_mem_create_wrapper : Func := ⟨"sdp_mem_create_wrapper",
    [(.voidp, "data"), (.i32, "type"), (.i32, "location"), (.i32, "num_dims"), (.pi64, "shape"),
     (.pi64, "stride"), (.err, "status")],
    some (.handle "Mem"),
    [.voidp, .i32, .i32, .i32, .pi64, .pi64],
    some (.handle "Mem"), true⟩

/-- src/ska-sdp-func/utility/sdp_mem.h:494-494 and src/ska_sdp_func/utility/mem.py:139-143. -/
def sdp_mem_set_read_only : Func := ⟨"sdp_mem_set_read_only",
    [(.handle "Mem", "mem"), (.i32, "value")],
    none,
    [.handle "Mem", .i32],
    none, false⟩

/-- src/ska-sdp-func/utility/sdp_mem.h:357-357 and src/ska_sdp_func/utility/mem.py:146-146. -/
def sdp_mem_free : Func := ⟨"sdp_mem_free",
    [(.handle "Mem", "mem")],
    none,
    [.handle "Mem"],
    none, false⟩

/-- src/ska-sdp-func/utility/sdp_sky_coord.h:53-58 and src/ska_sdp_func/utility/sky_coord.py:100-109. -/
def sdp_sky_coord_create : Func := ⟨"sdp_sky_coord_create",
    [(.str, "type"), (.f64, "coord0"), (.f64, "coord1"), (.f64, "coord2")],
    some (.handle "SkyCoord"),
    [.str, .f64, .f64, .f64],
    some (.handle "SkyCoord"), false⟩

/-- All of them. -/
def funcs : List Func :=
  [sdp_hogbom_clean, sdp_ms_clean_cornwell, sdp_function_example_a_create_plan,
   sdp_function_example_a_free_plan, sdp_function_example_a_exec, sdp_vector_add,
   sdp_fft_padded_size, sdp_fft_create, sdp_fft_free, sdp_fft_exec, sdp_swiftly_prepare_facet,
   sdp_swiftly_extract_from_facet, sdp_swiftly_add_to_subgrid, sdp_swiftly_add_to_subgrid_2d,
   sdp_swiftly_finish_subgrid_inplace, sdp_swiftly_finish_subgrid,
   sdp_swiftly_finish_subgrid_inplace_2d, sdp_swiftly_prepare_subgrid_inplace,
   sdp_swiftly_prepare_subgrid_inplace_2d, sdp_swiftly_extract_from_subgrid,
   sdp_swiftly_extract_from_subgrid_2d, sdp_swiftly_add_to_facet, sdp_swiftly_finish_facet,
   sdp_degrid_uvw_custom, sdp_grid_wstack_wtower_degrid_all, sdp_grid_wstack_wtower_grid_all,
   sdp_gridder_direct_create, sdp_gridder_direct_free, sdp_gridder_direct_degrid,
   sdp_gridder_direct_degrid_correct, sdp_gridder_direct_grid, sdp_gridder_direct_grid_correct,
   sdp_gridder_direct_image_size, sdp_gridder_direct_shear_u, sdp_gridder_direct_shear_v,
   sdp_gridder_direct_subgrid_size, sdp_gridder_direct_support, sdp_gridder_direct_theta,
   sdp_gridder_direct_w_step, sdp_gridder_clamp_channels_single, sdp_gridder_clamp_channels_uv,
   sdp_gridder_determine_max_w_tower_height, sdp_gridder_determine_w_step, sdp_gridder_make_kernel,
   sdp_gridder_make_pswf_kernel, sdp_gridder_make_w_pattern, sdp_gridder_rms_diff,
   sdp_gridder_subgrid_add, sdp_gridder_subgrid_cut_out, sdp_gridder_uvw_bounds_all,
   sdp_gridder_uvw_es_fft_create_plan, sdp_gridder_uvw_es_fft_free_plan, sdp_grid_uvw_es_fft,
   sdp_ifft_degrid_uvw_es, sdp_gridder_wtower_uvw_create, sdp_gridder_wtower_uvw_free,
   sdp_gridder_wtower_uvw_degrid, sdp_gridder_wtower_uvw_degrid_correct,
   sdp_gridder_wtower_uvw_grid, sdp_gridder_wtower_uvw_grid_correct,
   sdp_gridder_wtower_uvw_image_size, sdp_gridder_wtower_uvw_oversampling,
   sdp_gridder_wtower_uvw_shear_u, sdp_gridder_wtower_uvw_shear_v,
   sdp_gridder_wtower_uvw_subgrid_size, sdp_gridder_wtower_uvw_support,
   sdp_gridder_wtower_uvw_theta, sdp_gridder_wtower_uvw_w_oversampling,
   sdp_gridder_wtower_uvw_w_step, sdp_gridder_wtower_uvw_w_support, sdp_fft_convolution,
   sdp_element_beam_dipole, sdp_element_beam_spherical_wave_harp, sdp_station_beam_aperture_array,
   sdp_sky_coord_free, sdp_sky_coord_epoch, sdp_sky_coord_value, sdp_sky_coord_set_epoch,
   sdp_sky_coord_type, sdp_dft_point_v00, sdp_dft_point_v01, sdp_flagger_dynamic_threshold,
   sdp_optimized_weighting, sdp_optimised_indexed_weighting, sdp_phase_rotate_uvw,
   sdp_phase_rotate_vis, sdp_count_and_prefix_sum, sdp_bucket_sort, sdp_tiled_indexing,
   sdp_weighting_briggs, sdp_weighting_uniform, sdp_swiftly_create, sdp_swiftly_free,
   sdp_mem_create_wrapper, sdp_mem_set_read_only, sdp_mem_free, sdp_sky_coord_create]

/-- src/ska_sdp_func/clean/hogbom_clean.py:73-83. -/
def call1 : Site := ⟨"hogbom_clean", sdp_hogbom_clean,
    [.mem "dirty_img", .mem "psf", .mem "cbeam_details", .val "loop_gain", .val "threshold",
     .val "cycle_limit", .mem "clean_model", .mem "residual", .mem "skymodel"]⟩

/-- src/ska_sdp_func/clean/ms_clean_cornwell.py:78-89. -/
def call2 : Site := ⟨"ms_clean_cornwell", sdp_ms_clean_cornwell,
    [.mem "dirty_img", .mem "psf", .mem "cbeam_details", .mem "scale_list", .val "loop_gain",
     .val "threshold", .val "cycle_limit", .mem "clean_model", .mem "residual", .mem "skymodel"]⟩

/-- src/ska_sdp_func/examples/function_example_a.py:21-21. -/
def call3 : Site := ⟨"FunctionExampleA.__init__", sdp_function_example_a_create_plan,
    [.val "par_a", .val "par_b", .val "par_c"]⟩

/-- src/ska_sdp_func/examples/function_example_a.py:22-22. -/
def call4 : Site := ⟨"FunctionExampleA.__init__", sdp_function_example_a_free_plan,
    [.val "self"]⟩

/-- src/ska_sdp_func/examples/function_example_a.py:34-34. -/
def call5 : Site := ⟨"FunctionExampleA.exec", sdp_function_example_a_exec,
    [.val "self", .mem "output"]⟩

/-- src/ska_sdp_func/examples/vector.py:36-36. -/
def call6 : Site := ⟨"vector_add", sdp_vector_add,
    [.mem "input_a", .mem "input_b", .mem "output"]⟩

/-- src/ska_sdp_func/fourier_transforms/fft.py:60-60. -/
def call7 : Site := ⟨"padded_fft_size", sdp_fft_padded_size,
    [.val "num", .val "padding_factor"]⟩

/-- src/ska_sdp_func/fourier_transforms/fft.py:34-39. -/
def call8 : Site := ⟨"Fft.__init__", sdp_fft_create,
    [.mem "input_data", .mem "output_data", .val "num_dims_fft", .val "is_forward"]⟩

/-- src/ska_sdp_func/fourier_transforms/fft.py:40-40. -/
def call9 : Site := ⟨"Fft.__init__", sdp_fft_free,
    [.val "self"]⟩

/-- src/ska_sdp_func/fourier_transforms/fft.py:51-51. -/
def call10 : Site := ⟨"Fft.exec", sdp_fft_exec,
    [.val "self", .mem "input_data", .mem "output_data"]⟩

/-- src/ska_sdp_func/fourier_transforms/swiftly.py:207-208. -/
def call11 : Site := ⟨"Swiftly.prepare_facet", sdp_swiftly_prepare_facet,
    [.val "self", .mem "facet", .mem "prep_facet_out", .val "facet_offset"]⟩

/-- src/ska_sdp_func/fourier_transforms/swiftly.py:229-230. -/
def call12 : Site := ⟨"Swiftly.extract_from_facet", sdp_swiftly_extract_from_facet,
    [.val "self", .mem "prep_facet", .mem "contribution_out", .val "subgrid_offset"]⟩

/-- src/ska_sdp_func/fourier_transforms/swiftly.py:254-255. -/
def call13 : Site := ⟨"Swiftly.add_to_subgrid", sdp_swiftly_add_to_subgrid,
    [.val "self", .mem "contribution", .mem "subgrid_image_inout", .val "facet_offset"]⟩

/-- src/ska_sdp_func/fourier_transforms/swiftly.py:279-280. -/
def call14 : Site := ⟨"Swiftly.add_to_subgrid_2d", sdp_swiftly_add_to_subgrid_2d,
    [.val "self", .mem "contribution", .mem "subgrid_image_inout", .val "facet_offset0",
     .val "facet_offset1"]⟩

/-- src/ska_sdp_func/fourier_transforms/swiftly.py:308-309. -/
def call15 : Site := ⟨"Swiftly.finish_subgrid_inplace", sdp_swiftly_finish_subgrid_inplace,
    [.val "self", .mem "subgrid_inout", .val "subgrid_offset"]⟩

/-- src/ska_sdp_func/fourier_transforms/swiftly.py:325-326. -/
def call16 : Site := ⟨"Swiftly.finish_subgrid", sdp_swiftly_finish_subgrid,
    [.val "self", .mem "subgrid_image", .mem "subgrid_out", .val "subgrid_offset"]⟩

/-- src/ska_sdp_func/fourier_transforms/swiftly.py:347-348. -/
def call17 : Site := ⟨"Swiftly.finish_subgrid_inplace_2d", sdp_swiftly_finish_subgrid_inplace_2d,
    [.val "self", .mem "subgrid_inout", .val "subgrid_offset0", .val "subgrid_offset1"]⟩

/-- src/ska_sdp_func/fourier_transforms/swiftly.py:373-374. -/
def call18 : Site := ⟨"Swiftly.prepare_subgrid_inplace", sdp_swiftly_prepare_subgrid_inplace,
    [.val "self", .mem "subgrid_inout", .val "subgrid_offset"]⟩

/-- src/ska_sdp_func/fourier_transforms/swiftly.py:390-391. -/
def call19 : Site := ⟨"Swiftly.prepare_subgrid_inplace_2d", sdp_swiftly_prepare_subgrid_inplace_2d,
    [.val "self", .mem "subgrid_inout", .val "subgrid_offset0", .val "subgrid_offset1"]⟩

/-- src/ska_sdp_func/fourier_transforms/swiftly.py:417-418. -/
def call20 : Site := ⟨"Swiftly.extract_from_subgrid", sdp_swiftly_extract_from_subgrid,
    [.val "self", .mem "subgrid_image", .mem "contribution_out", .val "facet_offset"]⟩

/-- src/ska_sdp_func/fourier_transforms/swiftly.py:442-443. -/
def call21 : Site := ⟨"Swiftly.extract_from_subgrid_2d", sdp_swiftly_extract_from_subgrid_2d,
    [.val "self", .mem "subgrid_image", .mem "contribution_out", .val "facet_offset0",
     .val "facet_offset1"]⟩

/-- src/ska_sdp_func/fourier_transforms/swiftly.py:471-472. -/
def call22 : Site := ⟨"Swiftly.add_to_facet", sdp_swiftly_add_to_facet,
    [.val "self", .mem "contribution", .mem "facet_data_inout", .val "subgrid_offset"]⟩

/-- src/ska_sdp_func/fourier_transforms/swiftly.py:495-496. -/
def call23 : Site := ⟨"Swiftly.finish_facet", sdp_swiftly_finish_facet,
    [.val "self", .mem "facet_data", .mem "facet_out", .val "facet_offset"]⟩

/-- src/ska_sdp_func/grid_data/degrid_uvw_custom.py:59-70. -/
def call24 : Site := ⟨"degrid_uvw_custom", sdp_degrid_uvw_custom,
    [.mem "grid", .mem "uvw", .mem "uv_kernel", .mem "w_kernel", .val "theta", .val "wstep",
     .val "channel_start_hz", .val "channel_step_hz", .val "conjugate", .mem "vis"]⟩

/-- src/ska_sdp_func/grid_data/grid_wstack_wtower.py:57-76. -/
def call25 : Site := ⟨"wstack_wtower_degrid_all", sdp_grid_wstack_wtower_degrid_all,
    [.mem "image", .val "freq0_hz", .val "dfreq_hz", .mem "uvw", .val "subgrid_size", .val "theta",
     .val "w_step", .val "shear_u", .val "shear_v", .val "support", .val "oversampling",
     .val "w_support", .val "w_oversampling", .val "subgrid_frac", .val "w_tower_height",
     .val "verbosity", .mem "vis", .val "num_threads"]⟩

/-- src/ska_sdp_func/grid_data/grid_wstack_wtower.py:124-143. -/
def call26 : Site := ⟨"wstack_wtower_grid_all", sdp_grid_wstack_wtower_grid_all,
    [.mem "vis", .val "freq0_hz", .val "dfreq_hz", .mem "uvw", .val "subgrid_size", .val "theta",
     .val "w_step", .val "shear_u", .val "shear_v", .val "support", .val "oversampling",
     .val "w_support", .val "w_oversampling", .val "subgrid_frac", .val "w_tower_height",
     .val "verbosity", .mem "image", .val "num_threads"]⟩

/-- src/ska_sdp_func/grid_data/gridder_direct.py:40-48. -/
def call27 : Site := ⟨"GridderDirect.__init__", sdp_gridder_direct_create,
    [.val "image_size", .val "subgrid_size", .val "theta", .val "w_step", .val "shear_u",
     .val "shear_v", .val "support"]⟩

/-- src/ska_sdp_func/grid_data/gridder_direct.py:49-49. -/
def call28 : Site := ⟨"GridderDirect.__init__", sdp_gridder_direct_free,
    [.val "self"]⟩

/-- src/ska_sdp_func/grid_data/gridder_direct.py:100-112. -/
def call29 : Site := ⟨"GridderDirect.degrid_subgrid", sdp_gridder_direct_degrid,
    [.val "self", .mem "subgrid_image", .val "subgrid_offset_u", .val "subgrid_offset_v",
     .val "subgrid_offset_w", .val "freq0_hz", .val "dfreq_hz", .mem "uvws", .mem "start_chs",
     .mem "end_chs", .mem "vis"]⟩

/-- src/ska_sdp_func/grid_data/gridder_direct.py:134-136. -/
def call30 : Site := ⟨"GridderDirect.degrid_correct", sdp_gridder_direct_degrid_correct,
    [.val "self", .mem "facet", .val "facet_offset_l", .val "facet_offset_m", .val "w_offset"]⟩

/-- src/ska_sdp_func/grid_data/gridder_direct.py:179-191. -/
def call31 : Site := ⟨"GridderDirect.grid_subgrid", sdp_gridder_direct_grid,
    [.val "self", .mem "vis", .mem "uvws", .mem "start_chs", .mem "end_chs", .val "freq0_hz",
     .val "dfreq_hz", .mem "subgrid_image", .val "subgrid_offset_u", .val "subgrid_offset_v",
     .val "subgrid_offset_w"]⟩

/-- src/ska_sdp_func/grid_data/gridder_direct.py:210-212. -/
def call32 : Site := ⟨"GridderDirect.grid_correct", sdp_gridder_direct_grid_correct,
    [.val "self", .mem "facet", .val "facet_offset_l", .val "facet_offset_m", .val "w_offset"]⟩

/-- src/ska_sdp_func/grid_data/gridder_direct.py:220-220. -/
def call33 : Site := ⟨"GridderDirect.image_size", sdp_gridder_direct_image_size,
    [.val "self"]⟩

/-- src/ska_sdp_func/grid_data/gridder_direct.py:227-227. -/
def call34 : Site := ⟨"GridderDirect.shear_u", sdp_gridder_direct_shear_u,
    [.val "self"]⟩

/-- src/ska_sdp_func/grid_data/gridder_direct.py:234-234. -/
def call35 : Site := ⟨"GridderDirect.shear_v", sdp_gridder_direct_shear_v,
    [.val "self"]⟩

/-- src/ska_sdp_func/grid_data/gridder_direct.py:241-241. -/
def call36 : Site := ⟨"GridderDirect.subgrid_size", sdp_gridder_direct_subgrid_size,
    [.val "self"]⟩

/-- src/ska_sdp_func/grid_data/gridder_direct.py:248-248. -/
def call37 : Site := ⟨"GridderDirect.support", sdp_gridder_direct_support,
    [.val "self"]⟩

/-- src/ska_sdp_func/grid_data/gridder_direct.py:255-255. -/
def call38 : Site := ⟨"GridderDirect.theta", sdp_gridder_direct_theta,
    [.val "self"]⟩

/-- src/ska_sdp_func/grid_data/gridder_direct.py:262-262. -/
def call39 : Site := ⟨"GridderDirect.w_step", sdp_gridder_direct_w_step,
    [.val "self"]⟩

/-- src/ska_sdp_func/grid_data/gridder_utils.py:48-61. -/
def call40 : Site := ⟨"clamp_channels_single", sdp_gridder_clamp_channels_single,
    [.mem "uvws", .val "dim", .val "freq0_hz", .val "dfreq_hz", .mem "start_ch_in",
     .mem "end_ch_in", .val "min_u", .val "max_u", .mem "start_ch_out", .mem "end_ch_out",
     .val "start_row", .val "end_row"]⟩

/-- src/ska_sdp_func/grid_data/gridder_utils.py:101-115. -/
def call41 : Site := ⟨"clamp_channels_uv", sdp_gridder_clamp_channels_uv,
    [.mem "uvws", .val "freq0_hz", .val "dfreq_hz", .mem "start_ch_in", .mem "end_ch_in",
     .val "min_u", .val "max_u", .val "min_v", .val "max_v", .mem "start_ch_out",
     .mem "end_ch_out", .val "start_row", .val "end_row"]⟩

/-- src/ska_sdp_func/grid_data/gridder_utils.py:163-178. -/
def call42 : Site := ⟨"determine_max_w_tower_height", sdp_gridder_determine_max_w_tower_height,
    [.val "image_size", .val "subgrid_size", .val "theta", .val "w_step", .val "shear_u",
     .val "shear_v", .val "support", .val "oversampling", .val "w_support", .val "w_oversampling",
     .val "fov", .val "subgrid_frac", .val "num_samples", .val "target_err"]⟩

/-- src/ska_sdp_func/grid_data/gridder_utils.py:202-202. -/
def call43 : Site := ⟨"determine_w_step", sdp_gridder_determine_w_step,
    [.val "theta", .val "fov", .val "shear_u", .val "shear_v", .val "x_0"]⟩

/-- src/ska_sdp_func/grid_data/gridder_utils.py:229-244. -/
def call44 : Site := ⟨"find_max_w_tower_height", sdp_gridder_determine_max_w_tower_height,
    [.val "grid_kernel.image_size", .val "grid_kernel.subgrid_size", .val "grid_kernel.theta",
     .val "grid_kernel.w_step", .val "grid_kernel.shear_u", .val "grid_kernel.shear_v",
     .val "grid_kernel.support", .val "grid_kernel.oversampling", .val "grid_kernel.w_support",
     .val "grid_kernel.w_oversampling", .val "fov", .val "subgrid_frac", .val "num_samples",
     .val "target_err"]⟩

/-- src/ska_sdp_func/grid_data/gridder_utils.py:259-259. -/
def call45 : Site := ⟨"make_kernel", sdp_gridder_make_kernel,
    [.mem "window", .mem "kernel"]⟩

/-- src/ska_sdp_func/grid_data/gridder_utils.py:273-273. -/
def call46 : Site := ⟨"make_pswf_kernel", sdp_gridder_make_pswf_kernel,
    [.val "support", .mem "kernel"]⟩

/-- src/ska_sdp_func/grid_data/gridder_utils.py:297-299. -/
def call47 : Site := ⟨"make_w_pattern", sdp_gridder_make_w_pattern,
    [.val "subgrid_size", .val "theta", .val "shear_u", .val "shear_v", .val "w_step",
     .mem "w_pattern"]⟩

/-- src/ska_sdp_func/grid_data/gridder_utils.py:311-311. -/
def call48 : Site := ⟨"rms_diff", sdp_gridder_rms_diff,
    [.mem "array_a", .mem "array_b"]⟩

/-- src/ska_sdp_func/grid_data/gridder_utils.py:331-333. -/
def call49 : Site := ⟨"subgrid_add", sdp_gridder_subgrid_add,
    [.mem "grid", .val "offset_u", .val "offset_v", .mem "subgrid", .val "factor"]⟩

/-- src/ska_sdp_func/grid_data/gridder_utils.py:350-352. -/
def call50 : Site := ⟨"subgrid_cut_out", sdp_gridder_subgrid_cut_out,
    [.mem "grid", .val "offset_u", .val "offset_v", .mem "subgrid"]⟩

/-- src/ska_sdp_func/grid_data/gridder_utils.py:377-385. -/
def call51 : Site := ⟨"uvw_bounds_all", sdp_gridder_uvw_bounds_all,
    [.mem "uvws", .val "freq0_hz", .val "dfreq_hz", .mem "start_ch", .mem "end_ch", .val "min_uvw",
     .val "max_uvw"]⟩

/-- src/ska_sdp_func/grid_data/gridder_uvw_es_fft.py:71-83. -/
def call52 : Site := ⟨"GridderUvwEsFft.__init__", sdp_gridder_uvw_es_fft_create_plan,
    [.mem "uvw", .mem "freq_hz", .mem "vis", .mem "weight", .mem "dirty_image",
     .val "pixel_size_x_rad", .val "pixel_size_y_rad", .val "epsilon", .val "min_abs_w",
     .val "max_abs_w", .val "do_w_stacking"]⟩

/-- src/ska_sdp_func/grid_data/gridder_uvw_es_fft.py:84-84. -/
def call53 : Site := ⟨"GridderUvwEsFft.__init__", sdp_gridder_uvw_es_fft_free_plan,
    [.val "self"]⟩

/-- src/ska_sdp_func/grid_data/gridder_uvw_es_fft.py:119-126. -/
def call54 : Site := ⟨"GridderUvwEsFft.grid_uvw_es_fft", sdp_grid_uvw_es_fft,
    [.val "self", .mem "uvw", .mem "freq_hz", .mem "vis", .mem "weight", .mem "dirty_image"]⟩

/-- src/ska_sdp_func/grid_data/gridder_uvw_es_fft.py:139-146. -/
def call55 : Site := ⟨"GridderUvwEsFft.ifft_grid_uvw_es", sdp_ifft_degrid_uvw_es,
    [.val "self", .mem "uvw", .mem "freq_hz", .mem "vis", .mem "weight", .mem "dirty_image"]⟩

/-- src/ska_sdp_func/grid_data/gridder_wtower_uvw.py:44-55. -/
def call56 : Site := ⟨"GridderWtowerUVW.__init__", sdp_gridder_wtower_uvw_create,
    [.val "image_size", .val "subgrid_size", .val "theta", .val "w_step", .val "shear_u",
     .val "shear_v", .val "support", .val "oversampling", .val "w_support", .val "w_oversampling"]⟩

/-- src/ska_sdp_func/grid_data/gridder_wtower_uvw.py:56-56. -/
def call57 : Site := ⟨"GridderWtowerUVW.__init__", sdp_gridder_wtower_uvw_free,
    [.val "self"]⟩

/-- src/ska_sdp_func/grid_data/gridder_wtower_uvw.py:107-121. -/
def call58 : Site := ⟨"GridderWtowerUVW.degrid", sdp_gridder_wtower_uvw_degrid,
    [.val "self", .mem "subgrid_image", .val "subgrid_offset_u", .val "subgrid_offset_v",
     .val "subgrid_offset_w", .val "freq0_hz", .val "dfreq_hz", .mem "uvws", .mem "start_chs",
     .mem "end_chs", .mem "vis", .val "start_row", .val "end_row"]⟩

/-- src/ska_sdp_func/grid_data/gridder_wtower_uvw.py:171-185. -/
def call59 : Site := ⟨"GridderWtowerUVW.degrid_subgrid", sdp_gridder_wtower_uvw_degrid,
    [.val "self", .mem "subgrid_image", .val "subgrid_offset_u", .val "subgrid_offset_v",
     .val "subgrid_offset_w", .val "freq0_hz", .val "dfreq_hz", .mem "uvws", .mem "start_chs",
     .mem "end_chs", .mem "vis", .val "start_row", .val "end_row"]⟩

/-- src/ska_sdp_func/grid_data/gridder_wtower_uvw.py:207-209. -/
def call60 : Site := ⟨"GridderWtowerUVW.degrid_correct", sdp_gridder_wtower_uvw_degrid_correct,
    [.val "self", .mem "facet", .val "facet_offset_l", .val "facet_offset_m", .val "w_offset"]⟩

/-- src/ska_sdp_func/grid_data/gridder_wtower_uvw.py:257-271. -/
def call61 : Site := ⟨"GridderWtowerUVW.grid", sdp_gridder_wtower_uvw_grid,
    [.val "self", .mem "vis", .mem "uvw", .mem "start_chs", .mem "end_chs", .val "freq0_hz",
     .val "dfreq_hz", .mem "subgrid_image", .val "subgrid_offset_u", .val "subgrid_offset_v",
     .val "subgrid_offset_w", .val "start_row", .val "end_row"]⟩

/-- src/ska_sdp_func/grid_data/gridder_wtower_uvw.py:316-330. -/
def call62 : Site := ⟨"GridderWtowerUVW.grid_subgrid", sdp_gridder_wtower_uvw_grid,
    [.val "self", .mem "vis", .mem "uvw", .mem "start_chs", .mem "end_chs", .val "freq0_hz",
     .val "dfreq_hz", .mem "subgrid_image", .val "subgrid_offset_u", .val "subgrid_offset_v",
     .val "subgrid_offset_w", .val "start_row", .val "end_row"]⟩

/-- src/ska_sdp_func/grid_data/gridder_wtower_uvw.py:349-351. -/
def call63 : Site := ⟨"GridderWtowerUVW.grid_correct", sdp_gridder_wtower_uvw_grid_correct,
    [.val "self", .mem "facet", .val "facet_offset_l", .val "facet_offset_m", .val "w_offset"]⟩

/-- src/ska_sdp_func/grid_data/gridder_wtower_uvw.py:359-359. -/
def call64 : Site := ⟨"GridderWtowerUVW.image_size", sdp_gridder_wtower_uvw_image_size,
    [.val "self"]⟩

/-- src/ska_sdp_func/grid_data/gridder_wtower_uvw.py:366-366. -/
def call65 : Site := ⟨"GridderWtowerUVW.oversampling", sdp_gridder_wtower_uvw_oversampling,
    [.val "self"]⟩

/-- src/ska_sdp_func/grid_data/gridder_wtower_uvw.py:373-373. -/
def call66 : Site := ⟨"GridderWtowerUVW.shear_u", sdp_gridder_wtower_uvw_shear_u,
    [.val "self"]⟩

/-- src/ska_sdp_func/grid_data/gridder_wtower_uvw.py:380-380. -/
def call67 : Site := ⟨"GridderWtowerUVW.shear_v", sdp_gridder_wtower_uvw_shear_v,
    [.val "self"]⟩

/-- src/ska_sdp_func/grid_data/gridder_wtower_uvw.py:387-387. -/
def call68 : Site := ⟨"GridderWtowerUVW.subgrid_size", sdp_gridder_wtower_uvw_subgrid_size,
    [.val "self"]⟩

/-- src/ska_sdp_func/grid_data/gridder_wtower_uvw.py:394-394. -/
def call69 : Site := ⟨"GridderWtowerUVW.support", sdp_gridder_wtower_uvw_support,
    [.val "self"]⟩

/-- src/ska_sdp_func/grid_data/gridder_wtower_uvw.py:401-401. -/
def call70 : Site := ⟨"GridderWtowerUVW.theta", sdp_gridder_wtower_uvw_theta,
    [.val "self"]⟩

/-- src/ska_sdp_func/grid_data/gridder_wtower_uvw.py:408-408. -/
def call71 : Site := ⟨"GridderWtowerUVW.w_oversampling", sdp_gridder_wtower_uvw_w_oversampling,
    [.val "self"]⟩

/-- src/ska_sdp_func/grid_data/gridder_wtower_uvw.py:415-415. -/
def call72 : Site := ⟨"GridderWtowerUVW.w_step", sdp_gridder_wtower_uvw_w_step,
    [.val "self"]⟩

/-- src/ska_sdp_func/grid_data/gridder_wtower_uvw.py:422-422. -/
def call73 : Site := ⟨"GridderWtowerUVW.w_support", sdp_gridder_wtower_uvw_w_support,
    [.val "self"]⟩

/-- src/ska_sdp_func/numeric_functions/fft_convolution.py:29-33. -/
def call74 : Site := ⟨"fft_convolution", sdp_fft_convolution,
    [.mem "in1", .mem "in2", .mem "out"]⟩

/-- src/ska_sdp_func/station_beam/element.py:70-79. -/
def call75 : Site := ⟨"dipole", sdp_element_beam_dipole,
    [.val "theta_rad.size", .mem "theta_rad", .mem "phi_rad", .val "freq_hz",
     .val "dipole_length_m", .val "stride_element_beam", .val "index_offset_element_beam",
     .mem "element_beam"]⟩

/-- src/ska_sdp_func/station_beam/element.py:111-120. -/
def call76 : Site := ⟨"spherical_wave_harp", sdp_element_beam_spherical_wave_harp,
    [.val "theta_rad.size", .mem "theta_rad", .mem "phi_x_rad", .mem "phi_y_rad", .val "l_max",
     .mem "coeffs", .val "index_offset_element_beam", .mem "element_beam"]⟩

/-- src/ska_sdp_func/station_beam/station.py:117-135. -/
def call77 : Site := ⟨"aperture_array", sdp_station_beam_aperture_array,
    [.val "wavenumber", .mem "element_weights", .mem "element_x", .mem "element_y",
     .mem "element_z", .val "0", .val "point_x.size", .mem "point_x", .mem "point_y",
     .mem "point_z", .mem "element_beam_index", .mem "element_beam", .val "0", .mem "station_beam",
     .val "normalise", .val "eval_x", .val "eval_y"]⟩

/-- src/ska_sdp_func/utility/sky_coord.py:68-68. -/
def call78 : Site := ⟨"SkyCoord.__init__", sdp_sky_coord_free,
    [.val "self"]⟩

/-- src/ska_sdp_func/utility/sky_coord.py:74-74. -/
def call79 : Site := ⟨"SkyCoord.epoch", sdp_sky_coord_epoch,
    [.val "self"]⟩

/-- src/ska_sdp_func/utility/sky_coord.py:85-85. -/
def call80 : Site := ⟨"SkyCoord.value", sdp_sky_coord_value,
    [.val "self", .val "dim"]⟩

/-- src/ska_sdp_func/utility/sky_coord.py:93-93. -/
def call81 : Site := ⟨"SkyCoord.set_epoch", sdp_sky_coord_set_epoch,
    [.val "self", .val "epoch"]⟩

/-- src/ska_sdp_func/utility/sky_coord.py:97-97. -/
def call82 : Site := ⟨"SkyCoord.type", sdp_sky_coord_type,
    [.val "self"]⟩

/-- src/ska_sdp_func/visibility/dft.py:82-84. -/
def call83 : Site := ⟨"dft_point_v00", sdp_dft_point_v00,
    [.mem "source_directions", .mem "source_fluxes", .mem "uvw_lambda", .mem "vis"]⟩

/-- src/ska_sdp_func/visibility/dft.py:139-146. -/
def call84 : Site := ⟨"dft_point_v01", sdp_dft_point_v01,
    [.mem "source_directions", .mem "source_fluxes", .mem "uvw", .val "channel_start_hz",
     .val "channel_step_hz", .mem "vis"]⟩

/-- src/ska_sdp_func/visibility/flagger.py:86-96. -/
def call85 : Site := ⟨"flagger_dynamic_threshold", sdp_flagger_dynamic_threshold,
    [.mem "vis", .mem "flags", .val "alpha", .val "threshold_magnitudes",
     .val "threshold_variations", .val "threshold_broadband", .val "sampling_step", .val "window",
     .val "window_median_history"]⟩

/-- src/ska_sdp_func/visibility/opt_weighting.py:111-126. -/
def call86 : Site := ⟨"optimized_weighting", sdp_optimized_weighting,
    [.mem "uvw", .mem "freqs", .mem "vis", .mem "weights", .val "robust_param", .val "grid_size",
     .val "support", .mem "sorted_uu", .mem "sorted_vv", .mem "sorted_weight", .mem "sorted_tile",
     .mem "tile_offsets", .mem "num_points_in_tiles", .mem "output_weights"]⟩

/-- src/ska_sdp_func/visibility/opt_weighting.py:181-197. -/
def call87 : Site := ⟨"optimised_indexed_weighting", sdp_optimised_indexed_weighting,
    [.mem "uvw", .mem "vis", .mem "weights", .val "robust_param", .val "grid_size",
     .val "cell_size_rad", .val "support", .val "ctypes.byref(num_visibilities)",
     .mem "sorted_tile", .mem "sorted_uu", .mem "sorted_vv", .mem "sorted_vis_index",
     .mem "tile_offsets", .mem "num_points_in_tiles", .mem "output_weights"]⟩

/-- src/ska_sdp_func/visibility/phase_rotate.py:76-81. -/
def call88 : Site := ⟨"phase_rotate_uvw", sdp_phase_rotate_uvw,
    [.val "phase_centre_orig", .val "phase_centre_new", .mem "uvw_in", .mem "uvw_out"]⟩

/-- src/ska_sdp_func/visibility/phase_rotate.py:137-145. -/
def call89 : Site := ⟨"phase_rotate_vis", sdp_phase_rotate_vis,
    [.val "phase_centre_orig", .val "phase_centre_new", .val "channel_start_hz",
     .val "channel_step_hz", .mem "uvw", .mem "vis_in", .mem "vis_out"]⟩

/-- src/ska_sdp_func/visibility/tiled_functions.py:116-129. -/
def call90 : Site := ⟨"count_and_prefix_sum", sdp_count_and_prefix_sum,
    [.mem "uvw", .mem "freqs", .mem "vis", .val "grid_size", .val "tile_size_u",
     .val "tile_size_v", .val "cell_size_rad", .val "support",
     .val "ctypes.byref(num_visibilities)", .mem "tile_offsets", .mem "num_points_in_tiles",
     .mem "num_skipped"]⟩

/-- src/ska_sdp_func/visibility/tiled_functions.py:183-199. -/
def call91 : Site := ⟨"bucket_sort", sdp_bucket_sort,
    [.mem "uvw", .mem "freqs", .mem "vis", .mem "weights", .val "grid_size", .val "tile_size_u",
     .val "tile_size_v", .val "cell_size_rad", .val "support", .mem "sorted_uu", .mem "sorted_vv",
     .mem "sorted_weight", .mem "sorted_tile", .mem "sorted_vis", .mem "tile_offsets"]⟩

/-- src/ska_sdp_func/visibility/tiled_functions.py:253-269. -/
def call92 : Site := ⟨"tiled_indexing", sdp_tiled_indexing,
    [.mem "uvw", .mem "freqs", .val "grid_size", .val "tile_size_u", .val "tile_size_v",
     .val "cell_size_rad", .val "support", .val "num_channels", .val "num_baselines",
     .val "num_times", .mem "sorted_tile", .mem "sorted_uu", .mem "sorted_vv",
     .mem "sorted_vis_index", .mem "tile_offsets"]⟩

/-- src/ska_sdp_func/visibility/weighting.py:102-110. -/
def call93 : Site := ⟨"briggs_weights", sdp_weighting_briggs,
    [.mem "uvw", .mem "freq_hz", .val "max_abs_uv", .val "robust_param", .mem "grid_uv",
     .mem "input_weights", .mem "output_weights"]⟩

/-- src/ska_sdp_func/visibility/weighting.py:146-153. -/
def call94 : Site := ⟨"uniform_weights", sdp_weighting_uniform,
    [.mem "uvw", .mem "freq_hz", .val "max_abs_uv", .mem "grid_uv", .mem "input_weights",
     .mem "output_weights"]⟩

/-- src/ska_sdp_func/fourier_transforms/swiftly.py:150-152. -/
def call95 : Site := ⟨"Swiftly.__init__", sdp_swiftly_create,
    [.val "image_size", .val "yN_size", .val "xM_size", .val "W"]⟩

/-- src/ska_sdp_func/fourier_transforms/swiftly.py:159-159. -/
def call96 : Site := ⟨"Swiftly.__del__", sdp_swiftly_free,
    [.val "self"]⟩

/-- All of them. -/
def sites : List Site :=
  [call1, call2, call3, call4, call5, call6, call7, call8, call9, call10, call11, call12, call13,
   call14, call15, call16, call17, call18, call19, call20, call21, call22, call23, call24, call25,
   call26, call27, call28, call29, call30, call31, call32, call33, call34, call35, call36, call37,
   call38, call39, call40, call41, call42, call43, call44, call45, call46, call47, call48, call49,
   call50, call51, call52, call53, call54, call55, call56, call57, call58, call59, call60, call61,
   call62, call63, call64, call65, call66, call67, call68, call69, call70, call71, call72, call73,
   call74, call75, call76, call77, call78, call79, call80, call81, call82, call83, call84, call85,
   call86, call87, call88, call89, call90, call91, call92, call93, call94, call95, call96]

end Verif.Python.Bind
