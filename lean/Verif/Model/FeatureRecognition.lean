import Verif.Py

/-!
# Model of `ghedt/feature_recognition.py`

`cv2.pointPolygonTest` is external: it is the parameter `polyTest`, an arbitrary function of the
(scaled) polygon and the (scaled) point; only the sign of its answer is used.  The cast of the
polygon to `uint64` belongs to that external call.
-/

namespace Ghedt.FeatureRecognition

variable {K : Type} [Field K] [LinearOrder K]

/-- `scale_coordinates`, feature_recognition.py:7-14. -/
def scaleCoordinates (coordinates : List (K × K)) (scale : K) : List (K × K) :=
  coordinates.map fun p => (p.1 * scale, p.2 * scale)

/-- `remove_cutout`, feature_recognition.py:17-77.  The three index lists are built by the same
three-way test; `i in idx_list` is list membership. -/
def removeCutout (polyTest : List (K × K) → K × K → K) (coordinates : List (K × K))
    (boundary : List (K × K)) (removeInside keepContour : Bool) : List (K × K) :=
  let scale : K := 10000
  let coordinates := scaleCoordinates coordinates scale
  let boundary := scaleCoordinates boundary scale
  let indexed := coordinates.zipIdx
  let insideIdx := (indexed.filter fun q => decide (polyTest boundary q.1 > 0)).map (·.2)
  let outsideIdx := (indexed.filter fun q => !decide (polyTest boundary q.1 > 0) &&
    decide (polyTest boundary q.1 < 0)).map (·.2)
  let boundaryIdx := (indexed.filter fun q => !decide (polyTest boundary q.1 > 0) &&
    !decide (polyTest boundary q.1 < 0) && decide (polyTest boundary q.1 = 0)).map (·.2)
  let new := (indexed.filter fun q =>
    if removeInside && keepContour then !(insideIdx.contains q.2)
    else if removeInside && !keepContour then
      !(insideIdx.contains q.2 || boundaryIdx.contains q.2)
    else if !removeInside && !keepContour then
      !(outsideIdx.contains q.2 || boundaryIdx.contains q.2)
    else !(outsideIdx.contains q.2)).map (·.1)
  scaleCoordinates new (1 / scale)

/-- `determine_largest_rectangle`, feature_recognition.py:80-96. -/
def determineLargestRectangle (propertyBoundary : List (K × K)) : List (K × K) :=
  let m := propertyBoundary.foldl
    (fun (m : K × K) p => (if p.1 > m.1 then p.1 else m.1, if p.2 > m.2 then p.2 else m.2)) (0, 0)
  [(0, 0), (m.1, 0), (m.1, m.2), (0, m.2), (0, 0)]

end Ghedt.FeatureRecognition
