import Verif.Parse.Ese
import Verif.Parse.Sct
import Verif.Spec.InOrder
/-!
# The texts of a value, in the order in which they are written in a file
-/

namespace Verif.Spec.Origin

/-! ## Extended sector files -/

/-- `SID:airport:runway:name:waypoints`; the runway may be left out -/
def procedure : Locations.SidStar → List Str
  | .sid p => p.airport :: (p.runway.toList ++ p.name :: p.waypoints)
  | .star p => p.airport :: (p.runway.toList ++ p.name :: p.waypoints)

/-- `COPX:previous fix:departure runway:fix:next fix:arrival runway:exit sector:entry sector:climb:descent:description`;
the first five may be wildcards -/
def constraint (c : Constraints.Constraint) : List Str :=
  c.previousFix.toList ++ (c.departureRunway.toList ++ (c.fix.toList ++ (c.subsequentFix.toList ++ (c.arrivalRunway.toList ++
    [c.exitSector, c.entrySector, c.description]))))

/-- `name:callsign:frequency:identifier:middle:prefix:suffix` -/
def position {F : Type} (p : Parse.Ese.Position F) : List Str :=
  [p.name, p.callsign, p.frequency, p.identifier, p.middle, p.prefix_, p.suffix]

/-! ## Sector files -/

section
variable {F : Type}

/-- The name of a fix. -/
def location : Parse.Sct.Loc F → List Str
  | .fix d => [d]
  | .coordinate _ => []

def airport (a : Parse.Sct.Airport F) : List Str := [a.designator, a.ctrAirspace]
def fix (f : Parse.Sct.Fix F) : List Str := [f.designator]
def navaid (n : Parse.Sct.Navaid F) : List Str := [n.designator, n.frequency]
def runway (r : Parse.Sct.Runway F) : List Str := [r.designators.1, r.designators.2, r.aerodrome]
def airway (a : Parse.Sct.Airway F) : List Str := a.designator :: (location a.start ++ location a.stop)
def region (r : Parse.Sct.Region F) : List Str := [r.name, r.colourName]
def label (l : Parse.Sct.Label F) : List Str := l.name :: (location l.coordinate ++ [l.colourName])

/-- The name of a drawing and the fixes of its lines -/
def drawing (d : Parse.Sct.Drawing F) : List Str := d.name :: (d.lineGroups.flatMap fun g => g.lines.flatten.flatMap location)

/-- The name of a drawing and the colours of its lines -/
def colours (d : Parse.Sct.Drawing F) : List Str := d.name :: d.lineGroups.filterMap (·.colour)

end
end Verif.Spec.Origin
