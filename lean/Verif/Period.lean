import Verif.Config
/-!
# Model of `PublishPeriodStepResolution.multiplier` (`config.py`)
-/
namespace BM.Config

/-- config.py:741-753 `PublishPeriodStepResolution.multiplier`, in milliseconds; `none` is Python's `None`. -/
def multiplier (resolution : Int) : Option Int :=
  if resolution = 0 then some 100
  else if resolution = 1 then some 1000
  else if resolution = 2 then some (10 * 1000)
  else if resolution = 3 then some (10 * 60 * 1000)
  else none

end BM.Config
