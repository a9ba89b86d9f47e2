/- Model of dsps/data_loaders/retrieve_fake_fsps_data.py -/
import Verif.Model.LoadFilterData
import Verif.Model.Constants
import Mathlib.Data.Finset.Card

namespace Dsps.RetrieveFake
open Py Dsps.DataDefaults Dsps.LoadFilterData Jnp

/-- `string.ascii_uppercase` -/
def ascii_uppercase : List Char := chars! "ABCDEFGHIJKLMNOPQRSTUVWXYZ"

/-- What `"".join(random.choices(string.ascii_uppercase, k=3))` can return. -/
def IsDraw (s : Str) : Prop := s.length = 3 ∧ ∀ c ∈ s, c ∈ ascii_uppercase

/-- `/repo/dsps/data_loaders/retrieve_fake_fsps_data.py:110-112`: the state of the `while` loop after `t` iterations when
the random draws are `draws 0, draws 1, …`: the set, or the set at which the loop stopped. -/
def name_loop (draws : ℕ → Str) (n_line : ℕ) : ℕ → Finset Str
  | 0 => {chars! "XXX"}
  | t + 1 =>
    let s := name_loop draws n_line t
    if s.card < n_line then insert (draws t) s else s

/-- The loop condition of line 111 is false after `t` iterations. -/
def loop_done (draws : ℕ → Str) (n_line : ℕ) (t : ℕ) : Prop := ¬ (name_loop draws n_line t).card < n_line

/-- `np.logspace(3, 6, n)` as a list: `10 ** (3 + i*(6-3)/(n-1))` (and `[10**3]` when `n = 1`). -/
noncomputable def logspace36 (n : ℕ) : List ℝ :=
  (List.range n).map fun (i : ℕ) => exp10 (3 + (i : ℝ) * ((6 - 3) / ((n : ℝ) - 1)))

/-- `/repo/dsps/data_loaders/retrieve_fake_fsps_data.py:113-119`, after the loop ended with the set `s`; `order` is the
iteration order of the set. -/
noncomputable def emline_tuple [XID] (order : Finset Str → List Str) (n_line : ℕ) (s : Finset Str) :
    Except PyErr NamedTuple := do
  let ssp_emline_name := order s
  let ssp_emline_wave := logspace36 n_line
  let emLineWave ← namedtupleType ssp_emline_name
  construct emLineWave ssp_emline_wave

/-- `/repo/dsps/data_loaders/retrieve_fake_fsps_data.py:196-221` -/
noncomputable def zlegend : Fin 22 → ℝ :=
  ![0.0002, 0.0003, 0.0004, 0.0005, 0.0006, 0.0008, 0.001, 0.0012, 0.0016, 0.002, 0.0025, 0.0031, 0.0039, 0.0049, 0.0061,
   0.0077, 0.0096, 0.012, 0.015, 0.019, 0.024, 0.03]

/-- `/repo/dsps/data_loaders/retrieve_fake_fsps_data.py:82-84` -/
noncomputable def get_lgzlegend : Fin 22 → ℝ := fun i => log10 (zlegend i)

/-- `/repo/dsps/data_loaders/retrieve_fake_fsps_data.py:77-79`: `np.arange(-3.5, 1.2, 0.05)`, of length
`ceil((1.2+3.5)/0.05) = 94`. -/
noncomputable def get_log_age_gyr : Fin 94 → ℝ := fun i => -3.5 + (i : ℝ) * 0.05

/-- `/repo/dsps/data_loaders/retrieve_fake_fsps_data.py:87-90`: `np.linspace(100, 20_000, 1963)` -/
noncomputable def get_ssp_wave : Fin 1963 → ℝ := linspace 100 20000 1961

/-- `/repo/dsps/data_loaders/retrieve_fake_fsps_data.py:93-106`, given the two packaged tables of power-law
coefficients. -/
noncomputable def get_spec_ssp {n_met n_age : ℕ} (c0 c1 : Fin n_met → Fin n_age → ℝ) :
    Fin n_met → Fin n_age → Fin 1963 → ℝ :=
  fun iz iage i => exp10 (c0 iz iage + c1 iz iage * log10 (get_ssp_wave i))

/-- `/repo/dsps/data_loaders/retrieve_fake_fsps_data.py:130-139`: the line luminosities of one metallicity and age, for the
uniform draws `lowDraws` in `[-70,-2)`, `highDraws` in `[-2,3)` (in the code `np.random.uniform(lo, hi, size)`) and the
permutation done by `np.random.shuffle`.  `int(0.2 * n_line)` is the floor of a fifth. -/
noncomputable def emline_luminosity_row (n_line : ℕ) (lowDraws highDraws : ℕ → ℝ) (shuffle : List ℝ → List ℝ) : List ℝ :=
  let n_low := n_line / 5
  let n_high := n_line - n_low
  let low := (List.range n_low).map fun (i : ℕ) => exp10 (lowDraws i)
  let high := (List.range n_high).map fun (i : ℕ) => exp10 (highDraws i)
  (shuffle (low ++ high)).map fun x => x * Constants.L_SUN_CGS

/-- `/repo/dsps/data_loaders/retrieve_fake_fsps_data.py:142-143` -/
noncomputable def lsst_u_trans (x : ℝ) : ℝ := normPdf x 3.57 0.022 / 80
/-- `/repo/dsps/data_loaders/retrieve_fake_fsps_data.py:146-147` -/
noncomputable def lsst_g_trans (x : ℝ) : ℝ := normPdf x 3.68 0.04 / 20
/-- `/repo/dsps/data_loaders/retrieve_fake_fsps_data.py:150-151` -/
noncomputable def lsst_r_trans (x : ℝ) : ℝ := normPdf x 3.79 0.03 / 25
/-- `/repo/dsps/data_loaders/retrieve_fake_fsps_data.py:154-155` -/
noncomputable def lsst_i_trans (x : ℝ) : ℝ := normPdf x 3.875 0.025 / 30
/-- `/repo/dsps/data_loaders/retrieve_fake_fsps_data.py:158-159` -/
noncomputable def lsst_z_trans (x : ℝ) : ℝ := normPdf x 3.935 0.017 / 47
/-- `/repo/dsps/data_loaders/retrieve_fake_fsps_data.py:162-163` -/
noncomputable def lsst_y_trans (x : ℝ) : ℝ := normPdf x 3.985 0.017 / 85

/-- `/repo/dsps/data_loaders/retrieve_fake_fsps_data.py:65-74` `load_fake_filter_transmission_curves` -/
noncomputable def load_fake_filter_transmission_curves : (Fin 1963 → ℝ) × (Fin 6 → Fin 1963 → ℝ) :=
  let wave := get_ssp_wave
  let lgwave : Fin 1963 → ℝ := fun i => log10 (wave i)
  (wave, ![fun i => lsst_u_trans (lgwave i), fun i => lsst_g_trans (lgwave i), fun i => lsst_r_trans (lgwave i),
    fun i => lsst_i_trans (lgwave i), fun i => lsst_z_trans (lgwave i), fun i => lsst_y_trans (lgwave i)])

/-- `/repo/dsps/data_loaders/retrieve_fake_fsps_data.py:168-169` -/
noncomputable def wave_mins : Fin 6 → ℝ := ![3200, 3200, 3200, 4084, 4084, 4085]
/-- `/repo/dsps/data_loaders/retrieve_fake_fsps_data.py:168-169` -/
noncomputable def wave_maxs : Fin 6 → ℝ := ![9084, 9085, 9086, 10987, 10988, 10989]

/-- `/repo/dsps/data_loaders/retrieve_fake_fsps_data.py:166-174` `_get_filter_waves` -/
noncomputable def get_filter_waves : Fin 6 → Fin 1906 → ℝ := fun iband =>
  linspace (wave_mins iband) (wave_maxs iband) 1904

/-- `/repo/dsps/data_loaders/retrieve_fake_fsps_data.py:182-189` -/
noncomputable def func_list : Fin 6 → ℝ → ℝ :=
  ![lsst_u_trans, lsst_g_trans, lsst_r_trans, lsst_i_trans, lsst_z_trans, lsst_y_trans]

/-- `/repo/dsps/data_loaders/retrieve_fake_fsps_data.py:177-193` `_get_filter_trans` -/
noncomputable def get_filter_trans : Fin 6 → Fin 1906 → ℝ := fun iband i =>
  func_list iband (log10 (get_filter_waves iband i))

end Dsps.RetrieveFake
