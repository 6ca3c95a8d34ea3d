import Verif.Params.Model

/-!
# Calibration parameters in FITS headers

`ducks.ImageCalibration.toFitsHeader` and `fromFitsHeader` (tractor/ducks.py 162-189).  The header is
represented by what is read back from it: the values of the consecutive cards `P0`, `P1`, ...
-/

namespace Verif.Params

variable {α : Type}

/-- The cards `P0`, `P1`, ... written by `toFitsHeader`, ducks.py 163-168: `zip(getParamNames(),
getAllParams())`. -/
def toHeader (t : Par α) : List α := (List.zip (getParamNames t) (getAllParams t)).map (·.2)

/-- `fromFitsHeader`, ducks.py 174-189: a fresh object made by the constructor gets the values of at most 100
cards with `setAllParams`. -/
def fromHeader (fresh : Par α) (cards : List α) : Par α × Option PyErr := setAllParams fresh (cards.take 100)

end Verif.Params
