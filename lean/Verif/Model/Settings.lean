import Mathlib.Data.Real.Basic
import Verif.Np
import Verif.Model.Level

/-!
# Model of the configuration dictionary: `load` (pyowc/configuration.py:18-122), changes by the user, and the reading of its entries

A dictionary is the list of its names and values, in order of insertion. Decimal numbers are the exact numbers written in the source.
-/

namespace Verif.Configuration

open Verif.Np Verif.Level

/-- The values that occur in the dictionary. -/
inductive Value
  | text (s : String)
  | int (i : ℤ)
  | float (q : ℚ)
  | bounds (l : List (List ℤ))
  deriving DecidableEq

abbrev Dict := List (String × Value)

/-- The dictionary as it is written in the source (pyowc/configuration.py:25-121). -/
def written : Dict := [
  ("HISTORICAL_DIRECTORY", .text "data/climatology/"),
  ("HISTORICAL_CTD_PREFIX", .text "/historical_ctd/ctd_"),
  ("HISTORICAL_BOTTLE_PREFIX", .text "/historical_bot/bot_"),
  ("HISTORICAL_ARGO_PREFIX", .text "/historical_argo/argo_"),
  ("FLOAT_SOURCE_DIRECTORY", .text "data/float_source/"),
  ("FLOAT_SOURCE_POSTFIX", .text ".mat"),
  ("FLOAT_MAPPED_DIRECTORY", .text "data/float_mapped/"),
  ("FLOAT_MAPPED_PREFIX", .text "map_"),
  ("FLOAT_MAPPED_POSTFIX", .text ".mat"),
  ("FLOAT_CALIB_DIRECTORY", .text "data/float_calib"),
  ("FLOAT_CALIB_PREFIX", .text "cal_"),
  ("FLOAT_CALSERIES_PREFIX", .text "calseries_"),
  ("FLOAT_CALIB_POSTFIX", .text ".mat"),
  ("FLOAT_PLOTS_DIRECTORY", .text "data/float_plots/"),
  ("FLOAT_PLOTS_FORMAT", .text "eps"),
  ("CONFIG_DIRECTORY", .text "data/constants/"),
  ("CONFIG_COASTLINES", .text "coastdat.mat"),
  ("CONFIG_WMO_BOXES", .text "wmo_boxes.mat"),
  ("CONFIG_SAF", .text "TypicalProfileAroundSAF.mat"),
  ("CONFIG_MAX_CASTS", .int 300),
  ("MAP_USE_PV", .int 0),
  ("MAP_USE_SAF", .int 0),
  ("MAPSCALE_LONGITUDE_LARGE", .int 8),
  ("MAPSCALE_LONGITUDE_SMALL", .int 4),
  ("MAPSCALE_LATITUDE_LARGE", .int 4),
  ("MAPSCALE_LATITUDE_SMALL", .int 2),
  ("MAPSCALE_PHI_LARGE", .float (1 / 10)),
  ("MAPSCALE_PHI_SMALL", .float (2 / 100)),
  ("MAPSCALE_AGE_LARGE", .int 20),
  ("MAPSCALE_AGE_SMALL", .int 10),
  ("MAP_P_EXCLUDE", .int 100),
  ("MAP_P_DELTA", .int 250),
  ("THETA_BOUNDS", .bounds [[0, 5], [5, 20]])]

/-- Insertion into a sorted list, for `sorted`. -/
def insertEntry (e : String × Value) : Dict → Dict
  | [] => [e]
  | d :: ds => if e.1 < d.1 then e :: d :: ds else d :: insertEntry e ds

/-- `load` (pyowc/configuration.py:18-122): the entries sorted by name (line 122). The names differ, so the values are never compared. -/
def load : Dict := written.foldr insertEntry []

/-- `config[name] = value`, as users do between `load` and the steps of an analysis: the value of an existing name is replaced where it is, a new
name is added at the end (`collections.OrderedDict`, pyowc/configuration.py:122). -/
def assign (cfg : Dict) (u : String × Value) : Dict :=
  if u.1 ∈ cfg.map (·.1) then cfg.map fun e => if e.1 = u.1 then u else e else cfg ++ [u]

/-- `config[name]`. -/
def entry (cfg : Dict) (name : String) : Except PyErr Value :=
  match cfg.find? fun e => e.1 = name with
  | some e => .ok e.2
  | none => .error .keyError

/-- The names that the code reads: pyowc/calibration.py:57-110, 365-366, 400-415, 451-453, 538-540, 725-727, pyowc/configuration.py:150-161,
pyowc/data/fetchers.py:115, 171-174, 195-204, 305, 521, pyowc/plot/plots.py:59-88, 139-140, 200-201, 271-272, 552-553, 656-657, 733, 748-749,
pyowc/plot/dashboard.py:30-37, pyowc/core/stats.py:881-884. -/
def namesRead : List String :=
  ["FLOAT_SOURCE_DIRECTORY", "FLOAT_SOURCE_POSTFIX", "CONFIG_DIRECTORY", "CONFIG_WMO_BOXES", "CONFIG_MAX_CASTS", "MAP_USE_PV", "MAP_USE_SAF",
    "MAPSCALE_LONGITUDE_LARGE", "MAPSCALE_LONGITUDE_SMALL", "MAPSCALE_LATITUDE_LARGE", "MAPSCALE_LATITUDE_SMALL", "MAPSCALE_PHI_LARGE",
    "MAPSCALE_PHI_SMALL", "MAPSCALE_AGE_LARGE", "MAPSCALE_AGE_SMALL", "MAP_P_DELTA", "MAP_P_EXCLUDE", "FLOAT_MAPPED_DIRECTORY", "FLOAT_MAPPED_PREFIX",
    "FLOAT_MAPPED_POSTFIX", "FLOAT_CALIB_DIRECTORY", "FLOAT_CALSERIES_PREFIX", "FLOAT_CALIB_PREFIX", "FLOAT_CALIB_POSTFIX", "HISTORICAL_DIRECTORY",
    "HISTORICAL_CTD_PREFIX", "HISTORICAL_BOTTLE_PREFIX", "HISTORICAL_ARGO_PREFIX", "CONFIG_SAF", "FLOAT_PLOTS_FORMAT", "FLOAT_PLOTS_DIRECTORY",
    "THETA_BOUNDS"]

/-- A number read. Simplified: a value that is not a number is a `TypeError` at once; in the code the first operation on it raises. -/
noncomputable def number : Value → Except PyErr ℝ
  | .int i => .ok i
  | .float q => .ok q
  | _ => .error .typeError

/-- A whole number read. Simplified as `number`. -/
def whole : Value → Except PyErr ℤ
  | .int i => .ok i
  | _ => .error .typeError

/-- The settings of `update_salinity_mapping`, in the order in which they are entry (pyowc/calibration.py:70-82). -/
noncomputable def readMapping (cfg : Dict) : Except PyErr (MapConfig × ℤ × ℤ) := do
  let maxCasts ← whole (← entry cfg "CONFIG_MAX_CASTS")
  let usePv ← whole (← entry cfg "MAP_USE_PV")
  let useSaf ← whole (← entry cfg "MAP_USE_SAF")
  let longLarge ← number (← entry cfg "MAPSCALE_LONGITUDE_LARGE")
  let longSmall ← number (← entry cfg "MAPSCALE_LONGITUDE_SMALL")
  let latLarge ← number (← entry cfg "MAPSCALE_LATITUDE_LARGE")
  let latSmall ← number (← entry cfg "MAPSCALE_LATITUDE_SMALL")
  let phiLarge ← number (← entry cfg "MAPSCALE_PHI_LARGE")
  let phiSmall ← number (← entry cfg "MAPSCALE_PHI_SMALL")
  let ageLarge ← number (← entry cfg "MAPSCALE_AGE_LARGE")
  let ageSmall ← number (← entry cfg "MAPSCALE_AGE_SMALL")
  let pDelta ← number (← entry cfg "MAP_P_DELTA")
  let pExclude ← number (← entry cfg "MAP_P_EXCLUDE")
  return (⟨longLarge, longSmall, latLarge, latSmall, phiLarge, phiSmall, ageLarge, ageSmall, usePv, pDelta, pExclude⟩, maxCasts, useSaf)

end Verif.Configuration
