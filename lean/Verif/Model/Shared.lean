import Verif.Model.WholeGhe

/-!
# Objects that an exchanger shares with its caller

`BaseGHE.__init__` stores the list of hourly loads and the `SimulationParameters` it is given, not copies of them
(ground_heat_exchangers.py:43-47): a caller that changes them in place changes them for the exchanger too.  The hybrid load is
made from them once, by the constructor (218-231).
-/

namespace Ghedt.Whole

/-- The contents of the list of hourly loads (ground_heat_exchangers.py:47) and of the `SimulationParameters` object (44;
peak_load_analysis_tool/media.py:109-122): months simulated, temperature limits, bounds for the height. -/
structure Shared where
  hourly : List ℝ
  startMonth : ℤ
  endMonth : ℤ
  maxEFT : ℝ
  minEFT : ℝ
  minHeight : ℝ
  maxHeight : ℝ

/-- The exchanger with other contents of the shared objects: `simulate` reads the loads and the months
(ground_heat_exchangers.py:303-306), `cost` the limits (127-133), `size` the bounds for the height (333-352), each time anew.  The
hybrid load is an object of its own and stays (298-301). -/
def Env.sharing (env : Env) (c : Shared) : Env :=
  { env with
    hourly := c.hourly
    startMonth := c.startMonth
    endMonth := c.endMonth
    maxEFT := c.maxEFT
    minEFT := c.minEFT
    minHeight := c.minHeight
    maxHeight := c.maxHeight }

end Ghedt.Whole
