import Verif.Model.Settings
import Verif.Spec.Clean

/-!
# Specification vocabulary for the configuration
-/

namespace Verif.Spec

open Verif.Configuration Verif.Profile Verif.Spec.Profile Verif.Update

/-- Among the changes `ups`, `value` is the one last given to `name`. -/
def LastGiven (ups : List (String × Value)) (name : String) (value : Value) : Prop :=
  ∃ before after, ups = before ++ (name, value) :: after ∧ ∀ u ∈ after, u.1 ≠ name

/-- The configuration loaded and then changed by `ups`, in this order. -/
def configured (ups : List (String × Value)) : Dict := ups.foldl assign load

/-- The parameters and the values they have if nothing is changed, by name. -/
def defaults : List (String × Value) := [
  ("CONFIG_COASTLINES", .text "coastdat.mat"),
  ("CONFIG_DIRECTORY", .text "data/constants/"),
  ("CONFIG_MAX_CASTS", .int 300),
  ("CONFIG_SAF", .text "TypicalProfileAroundSAF.mat"),
  ("CONFIG_WMO_BOXES", .text "wmo_boxes.mat"),
  ("FLOAT_CALIB_DIRECTORY", .text "data/float_calib"),
  ("FLOAT_CALIB_POSTFIX", .text ".mat"),
  ("FLOAT_CALIB_PREFIX", .text "cal_"),
  ("FLOAT_CALSERIES_PREFIX", .text "calseries_"),
  ("FLOAT_MAPPED_DIRECTORY", .text "data/float_mapped/"),
  ("FLOAT_MAPPED_POSTFIX", .text ".mat"),
  ("FLOAT_MAPPED_PREFIX", .text "map_"),
  ("FLOAT_PLOTS_DIRECTORY", .text "data/float_plots/"),
  ("FLOAT_PLOTS_FORMAT", .text "eps"),
  ("FLOAT_SOURCE_DIRECTORY", .text "data/float_source/"),
  ("FLOAT_SOURCE_POSTFIX", .text ".mat"),
  ("HISTORICAL_ARGO_PREFIX", .text "/historical_argo/argo_"),
  ("HISTORICAL_BOTTLE_PREFIX", .text "/historical_bot/bot_"),
  ("HISTORICAL_CTD_PREFIX", .text "/historical_ctd/ctd_"),
  ("HISTORICAL_DIRECTORY", .text "data/climatology/"),
  ("MAPSCALE_AGE_LARGE", .int 20),
  ("MAPSCALE_AGE_SMALL", .int 10),
  ("MAPSCALE_LATITUDE_LARGE", .int 4),
  ("MAPSCALE_LATITUDE_SMALL", .int 2),
  ("MAPSCALE_LONGITUDE_LARGE", .int 8),
  ("MAPSCALE_LONGITUDE_SMALL", .int 4),
  ("MAPSCALE_PHI_LARGE", .float 0.1),
  ("MAPSCALE_PHI_SMALL", .float 0.02),
  ("MAP_P_DELTA", .int 250),
  ("MAP_P_EXCLUDE", .int 100),
  ("MAP_USE_PV", .int 0),
  ("MAP_USE_SAF", .int 0),
  ("THETA_BOUNDS", .bounds [[0, 5], [5, 20]])]

/-- `name` is a parameter with the default `value`. -/
def Default (name : String) (value : Value) : Prop := (name, value) ∈ defaults

/-- The names of numbers for the mapping. -/
def ForMapping (name : String) : Prop :=
  name ∈ ["CONFIG_MAX_CASTS", "MAP_USE_PV", "MAP_USE_SAF", "MAPSCALE_LONGITUDE_LARGE", "MAPSCALE_LONGITUDE_SMALL", "MAPSCALE_LATITUDE_LARGE",
    "MAPSCALE_LATITUDE_SMALL", "MAPSCALE_PHI_LARGE", "MAPSCALE_PHI_SMALL", "MAPSCALE_AGE_LARGE", "MAPSCALE_AGE_SMALL", "MAP_P_DELTA", "MAP_P_EXCLUDE"]

/-- `x` is the number under `name`. -/
def IsNumber (cfg : Dict) (name : String) (x : ℝ) : Prop :=
  (∃ i : ℤ, entry cfg name = .ok (.int i) ∧ x = i) ∨ ∃ q : ℚ, entry cfg name = .ok (.float q) ∧ x = q

/-- The numbers of a run are those of the configuration after the changes `ups`. -/
def HasSettings (R : FloatRun) (ups : List (String × Value)) : Prop :=
  readMapping (configured ups) = .ok (R.env.cfg, (R.env.maxCasts : ℤ), R.env.useSaf)

end Verif.Spec
