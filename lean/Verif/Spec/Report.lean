/-!
# Specification of the text printed for an exchanger

Nothing here refers to the model.
-/

namespace Ghedt.Spec

/-- What the text is made of. -/
structure Page where
  boreholes : String
  depth : String
  spacing : String
  /-- texts of the borehole heat exchanger, of the equivalent tube and of the simulation parameters -/
  exchanger : String
  tube : String
  parameters : String
  /-- highest and lowest entering temperature and excess, if there are any -/
  temperatures : Option (String × String × String)
  peaks : String
  /-- coordinates of the boreholes -/
  places : List (String × String)
  /-- the table of the g-function -/
  curve : List (String × String)

/-- A line of two columns. -/
def row (r : String × String) : String := r.1 ++ "\t" ++ r.2 ++ "\n"

/-- The text, line by line. -/
def Page.text (p : Page) : String :=
  String.join ([
    "--------------------------------------------------\n",
    "--------------------------------------------------\n",
    "|         GHEDT GHE Output - Version 0.1         |\n",
    "--------------------------------------------------\n",
    "--------------------------------------------------\n",
    "Number of borheoles                     = ", p.boreholes, "\n",
    "Depth of the borehole                   = ", p.depth, " (m)\n",
    "Bore hole spacing                       = ", p.spacing, " (m)\n",
    "--------------------------------------------------\n",
    "|            Borehole Heat Exchanger             |\n",
    "--------------------------------------------------\n",
    p.exchanger,
    "--------------------------------------------------\n",
    "|       Equivalent Borehole Heat Exchanger       |\n",
    "--------------------------------------------------\n",
    p.tube,
    "--------------------------------------------------\n",
    "|             Simulation parameters              |\n",
    "--------------------------------------------------\n",
    p.parameters] ++
    (match p.temperatures with
    | none => []
    | some (hi, lo, excess) => [
      "Max HP entering temp                    = ", hi, " (degrees Celsius)\n",
      "Min HP entering temp                    = ", lo, " (degrees Celsius)\n",
      "Excess fluid temperature                = ", excess, " (degrees Celsius)\n"]) ++ [
    "--------------------------------------------------\n",
    "|               Peak Load Analysis               |\n",
    "--------------------------------------------------\n",
    p.peaks, "\n",
    "--------------------------------------------------\n",
    "|             GFunction Information              |\n",
    "--------------------------------------------------\n",
    "Coordinates\n", "x(m)\ty(m)\n"] ++
    p.places.map row ++ [
    "G-Function\n", "ln(t/ts)\tg\n"] ++
    p.curve.map row)

end Ghedt.Spec
