import Mathlib.Data.List.Basic

/-! Model of what happens when a program imports dsps: the module-level statements of every module of the package, executed
by Python's import system.

Modelled: the module graph (every `import` of a dsps module in every file, in order), the process-wide JAX flag
`jax_enable_x64`, and the module-level constants that are computed by running JAX code at import time.  Other module-level
statements (function definitions, literal constants, third-party imports, namedtuple creation) have no effect on these and are
omitted.  `try: import fsps` / `try: import matplotlib` succeed or not without any effect here.

Simplification, conservative: `from t import name` is an ImportError as soon as module `t` is still being executed
(a circular import), even if `name` happens to be bound already.  That the imported names exist is not checked. -/
namespace Dsps.Imports

/-- The modules of the package (all `.py` files under `/repo/dsps` outside `tests`, plus the generated `_version.py`).  A package's
`__init__.py` has the name of the package. -/
inductive Module
  | dsps | version | constants | utils
  | cosmology | cosmology_flat_wcdm | cosmology_defaults
  | data_loaders | data_loaders_defaults | data_loaders_load_emline_info | data_loaders_load_filter_data
  | data_loaders_load_ssp_data | data_loaders_retrieve_fake_fsps_data | data_loaders_retrieve_fsps_data
  | dust | dust_att_curves | dust_blackbody | dust_utils
  | em_lines | em_lines_equivalent_width
  | experimental
  | imf | imf_remnant_mass | imf_surviving_mstar
  | metallicity | metallicity_defaults | metallicity_mzr | metallicity_umzr
  | metallicity_diagnostics | metallicity_diagnostics_plot_mzr
  | photometry | photometry_photometry_kernels | photometry_photpop | photometry_utils
  | sed | sed_metallicity_weights | sed_ssp_weights | sed_stellar_age_weights | sed_stellar_sed
  | sfh | sfh_diffburst
  deriving DecidableEq, Repr

/-- Module-level constants whose value is computed by running JAX code during the import. -/
inductive Const
  /-- cosmology/defaults.py:8 -/
  | TODAY
  /-- metallicity/umzr.py:267 -/
  | DEFAULT_MZR_U_PARAMS
  /-- sfh/diffburst.py:212-214 -/
  | DEFAULT_BURST_U_PARAMS
  deriving DecidableEq, Repr

/-- The packages a module lies in, outermost first. `import a.b.c` imports `a`, then `a.b`, then `a.b.c`. -/
def packages : Module → List Module
  | .dsps => []
  | .cosmology_flat_wcdm | .cosmology_defaults => [.dsps, .cosmology]
  | .data_loaders_defaults | .data_loaders_load_emline_info | .data_loaders_load_filter_data | .data_loaders_load_ssp_data
  | .data_loaders_retrieve_fake_fsps_data | .data_loaders_retrieve_fsps_data => [.dsps, .data_loaders]
  | .dust_att_curves | .dust_blackbody | .dust_utils => [.dsps, .dust]
  | .em_lines_equivalent_width => [.dsps, .em_lines]
  | .imf_remnant_mass | .imf_surviving_mstar => [.dsps, .imf]
  | .metallicity_defaults | .metallicity_mzr | .metallicity_umzr | .metallicity_diagnostics => [.dsps, .metallicity]
  | .metallicity_diagnostics_plot_mzr => [.dsps, .metallicity, .metallicity_diagnostics]
  | .photometry_photometry_kernels | .photometry_photpop | .photometry_utils => [.dsps, .photometry]
  | .sed_metallicity_weights | .sed_ssp_weights | .sed_stellar_age_weights | .sed_stellar_sed => [.dsps, .sed]
  | .sfh_diffburst => [.dsps, .sfh]
  | _ => [.dsps]

/-- Module-level statements that matter here. -/
inductive Stmt
  /-- `from m import ...` (or `from m import *`) -/
  | fromImport (m : Module)
  /-- `from p import m` where `m` is a submodule of the package `p` -/
  | fromImportSub (p m : Module)
  /-- `jax.config.update("jax_enable_x64", True)` -/
  | enableX64
  /-- `C = <JAX computation>` -/
  | compute (c : Const)
  deriving DecidableEq, Repr

open Module Stmt in
/-- The module bodies, in statement order. -/
def body : Module → List Stmt
  -- dsps/__init__.py:4-8
  | dsps => [fromImport version, fromImport data_loaders, fromImport photometry, fromImport sed, fromImport utils]
  | version | constants => []
  -- utils.py:10
  | utils => [fromImport constants]
  -- cosmology/__init__.py:4-6
  | cosmology => [fromImport cosmology_flat_wcdm, fromImport cosmology_flat_wcdm, fromImport cosmology_defaults]
  -- cosmology/flat_wcdm.py:10
  | cosmology_flat_wcdm => [fromImport utils]
  -- cosmology/defaults.py:3,6,8
  | cosmology_defaults => [fromImport cosmology_flat_wcdm, fromImport cosmology_flat_wcdm, compute .TODAY]
  -- data_loaders/__init__.py:3-6
  | data_loaders => [fromImport data_loaders_defaults, fromImport data_loaders_load_filter_data,
      fromImport data_loaders_load_ssp_data, fromImport data_loaders_retrieve_fsps_data]
  | data_loaders_defaults | data_loaders_load_emline_info => []
  -- data_loaders/load_filter_data.py:12
  | data_loaders_load_filter_data => [fromImport data_loaders_defaults]
  -- data_loaders/load_ssp_data.py:8-10
  | data_loaders_load_ssp_data => [fromImport constants, fromImport data_loaders_defaults,
      fromImport data_loaders_retrieve_fake_fsps_data]
  -- data_loaders/retrieve_fake_fsps_data.py:11-12
  | data_loaders_retrieve_fake_fsps_data => [fromImport constants, fromImport data_loaders_defaults]
  -- data_loaders/retrieve_fsps_data.py:15
  | data_loaders_retrieve_fsps_data => [fromImport data_loaders_defaults]
  -- dust/__init__.py:4
  | dust => [fromImport dust_blackbody]
  -- dust/att_curves.py:23
  | dust_att_curves => [fromImport utils]
  -- dust/blackbody.py:6
  | dust_blackbody => [enableX64]
  -- dust/utils.py:5
  | dust_utils => [fromImport utils]
  | em_lines => []
  -- em_lines/equivalent_width.py:6
  | em_lines_equivalent_width => [fromImport utils]
  | experimental => []
  | imf => []
  -- imf/remnant_mass.py:5, imf/surviving_mstar.py:5
  | imf_remnant_mass | imf_surviving_mstar => [fromImport utils]
  | metallicity => []
  -- metallicity/defaults.py:5
  | metallicity_defaults => [fromImport metallicity_mzr]
  -- metallicity/mzr.py:8
  | metallicity_mzr => [fromImport utils]
  -- metallicity/umzr.py:11,267
  | metallicity_umzr => [fromImport utils, compute .DEFAULT_MZR_U_PARAMS]
  | metallicity_diagnostics => []
  -- metallicity/diagnostics/plot_mzr.py:17
  | metallicity_diagnostics_plot_mzr => [fromImportSub metallicity metallicity_umzr]
  -- photometry/__init__.py:4
  | photometry => [fromImport photometry_photometry_kernels]
  -- photometry/photometry_kernels.py:6-7
  | photometry_photometry_kernels => [fromImport cosmology_flat_wcdm, fromImport utils]
  -- photometry/photpop.py:6
  | photometry_photpop => [fromImport photometry_photometry_kernels]
  | photometry_utils => []
  -- sed/__init__.py:5,7-10
  | sed => [enableX64, fromImport sed_metallicity_weights, fromImport sed_ssp_weights, fromImport sed_stellar_age_weights,
      fromImport sed_stellar_sed]
  -- sed/metallicity_weights.py:6,12,13,18
  | sed_metallicity_weights => [enableX64, fromImport constants, fromImport utils, fromImport sed_stellar_age_weights]
  -- sed/ssp_weights.py:6,13,17
  | sed_ssp_weights => [enableX64, fromImport sed_metallicity_weights, fromImport sed_stellar_age_weights]
  -- sed/stellar_age_weights.py:6,11-13
  | sed_stellar_age_weights => [enableX64, fromImport constants, fromImport cosmology, fromImport utils]
  -- sed/stellar_sed.py:6,13,14,18
  | sed_stellar_sed => [enableX64, fromImport constants, fromImport sed_ssp_weights, fromImport sed_stellar_age_weights]
  | sfh => []
  -- sfh/diffburst.py:8,212
  | sfh_diffburst => [fromImport utils, compute .DEFAULT_BURST_U_PARAMS]

/-- The part of the process state that matters. -/
structure State where
  /-- the JAX flag `jax_enable_x64` -/
  x64 : Bool
  /-- `sys.modules`, in the order in which execution of the module started -/
  started : List Module
  /-- modules whose body has run to the end -/
  finished : List Module
  /-- the computed constants, with the value of the flag when they were computed (`true`: double precision) -/
  consts : List (Const × Bool)
  deriving DecidableEq, Repr

/-- A process that has not imported dsps; `b`: the user's setting of the flag. -/
def fresh (b : Bool) : State := ⟨b, [], [], []⟩

mutual
/-- Import one module whose packages have been imported: nothing if it is in `sys.modules`, otherwise execute its body.
`none`: an ImportError was raised (or the recursion budget ran out, which `C110_no_import_error` rules out). -/
def importOne : ℕ → Module → State → Option State
  | 0, _, _ => none
  | fuel + 1, m, s =>
    if m ∈ s.started then some s
    else do
      let s ← runBody fuel (body m) { s with started := s.started ++ [m] }
      some { s with finished := s.finished ++ [m] }

/-- Execute a list of module-level statements. -/
def runBody : ℕ → List Stmt → State → Option State
  | 0, _, _ => none
  | _ + 1, [], s => some s
  | fuel + 1, .fromImport t :: rest, s => do
    let s ← importAll fuel (packages t ++ [t]) s
    if t ∈ s.finished then runBody fuel rest s else none
  | fuel + 1, .fromImportSub p m :: rest, s => do
    let s ← importAll fuel (packages p ++ [p]) s
    if p ∈ s.finished then
      let s ← importAll fuel (packages m ++ [m]) s
      if m ∈ s.finished then runBody fuel rest s else none
    else none
  | fuel + 1, .enableX64 :: rest, s => runBody fuel rest { s with x64 := true }
  | fuel + 1, .compute c :: rest, s => runBody fuel rest { s with consts := s.consts ++ [(c, s.x64)] }

/-- `import a.b.c`: import each of `a`, `a.b`, `a.b.c` in turn. -/
def importAll : ℕ → List Module → State → Option State
  | 0, _, _ => none
  | _ + 1, [], s => some s
  | fuel + 1, m :: ms, s => do
    let s ← importOne fuel m s
    importAll fuel ms s
end

/-- The statement `import m` (or `from m import ...`) executed by the user's program. -/
def importModule (m : Module) (s : State) : Option State := importAll 64 (packages m ++ [m]) s

/-- What the user's program does: import a dsps module, or set the JAX flag. -/
inductive Event
  | imp (m : Module)
  | setX64 (b : Bool)

def step : Event → State → Option State
  | .imp m, s => importModule m s
  | .setX64 b, s => some { s with x64 := b }

/-- A whole program history. -/
def run : List Event → State → Option State
  | [], s => some s
  | e :: es, s => do
    let s ← step e s
    run es s

end Dsps.Imports
