import Verif.Base.Sort
import Verif.Base.ShowNat
import Verif.Base.Radix
import Verif.Parse.Sct
/-!
# `/repo/src/sct.rs` 130-482 and 1167-1193: writing sector files

The text of a floating-point number is a parameter.
-/

namespace Verif.Model.SctWrite
open Verif.Parse (Point)
open Verif.Parse.Sct
open Verif.Colours (Colour toEuroscope)

/-- How numbers are printed. -/
structure Printer (F : Type) where
  /-- `lat_deg_min_sec_fmt`, `lng_deg_min_sec_fmt`, lib.rs 108-124 -/
  dms (isLatitude : Bool) : F → Str
  /-- `{}` of an `f64` -/
  display : F → Str

/-- `{:<width}` -/
def padRight (width : Nat) (s : Str) : Str := s ++ List.replicate (width - s.length) ' '

/-- `join(sep)` -/
def join (sep : Str) : List Str → Str
  | [] => []
  | [a] => a
  | a :: b :: l => a ++ (sep ++ join sep (b :: l))

section
variable {F : Type} (P : Printer F)

/-- `deg_min_sec_fmt`, lib.rs 87-93 -/
def point (p : Point F) : Str := P.dms true p.y ++ (c!" " ++ P.dms false p.x)

/-- `Display for SctInfo`, sct.rs 130-143 -/
def info (i : Info F) : Str :=
  c!"[INFO]\n" ++ (i.name ++ (c!"\n" ++ (i.defaultCallsign ++ (c!"\n" ++ (i.defaultAirport ++ (c!"\n" ++
    (P.dms true i.centrePoint.y ++ (c!"\n" ++ (P.dms false i.centrePoint.x ++ (c!"\n" ++ (P.display i.milesPerDegLat ++ (c!"\n" ++
    (P.display i.milesPerDegLng ++ (c!"\n" ++ (P.display i.magneticVariation ++ (c!"\n" ++ (P.display i.scaleFactor ++ c!"\n")))))))))))))))))

/-- `to_euroscope` for `VOR` and `NDB`, sct.rs 158-167 and 179-188 -/
def navaid (n : Navaid F) : Str := padRight 4 n.designator ++ (c!" " ++ (n.frequency ++ (c!" " ++ point P n.coordinate)))

/-- `to_euroscope` for `Vec<VOR>`, sct.rs 147-157 -/
def vors (l : List (Navaid F)) : Str := c!"[VOR]\n" ++ (join c!"\n" (sortBy id (l.map (navaid P))) ++ c!"\n")

/-- `to_euroscope` for `Vec<NDB>`, sct.rs 168-178 -/
def ndbs (l : List (Navaid F)) : Str := c!"[NDB]\n" ++ (join c!"\n" (sortBy id (l.map (navaid P))) ++ c!"\n")

/-- `to_euroscope` for `Fix`, sct.rs 200-208 -/
def fix (n : Fix F) : Str := padRight 5 n.designator ++ (c!" " ++ point P n.coordinate)

/-- `to_euroscope` for `Vec<Fix>`, sct.rs 189-199 -/
def fixes (l : List (Fix F)) : Str := c!"[FIXES]\n" ++ (join c!"\n" (sortBy id (l.map (fix P))) ++ c!"\n")

/-- `to_euroscope` for `Airport`, sct.rs 220-229 -/
def airport (a : Airport F) : Str := a.designator ++ (c!" 000.000 " ++ (point P a.coordinate ++ (c!" " ++ a.ctrAirspace)))

/-- `to_euroscope` for `Vec<Airport>`, sct.rs 209-219 -/
def airports (l : List (Airport F)) : Str := c!"[AIRPORT]\n" ++ (join c!"\n" (sortBy id (l.map (airport P))) ++ c!"\n")

/-- `to_euroscope` for `Runway`, sct.rs 241-254 -/
def runway (r : Runway F) : Str :=
  padRight 3 r.designators.1 ++ (c!" " ++ (padRight 3 r.designators.2 ++ (c!" " ++ (padZero 3 (showNat r.headings.1) ++ (c!" " ++
    (padZero 3 (showNat r.headings.2) ++ (c!" " ++ (point P r.location.1 ++ (c!" " ++ (point P r.location.2 ++ (c!" " ++ r.aerodrome)))))))))))

/-- `to_euroscope` for `Vec<Runway>`, sct.rs 230-240 -/
def runways (l : List (Runway F)) : Str := c!"[RUNWAY]\n" ++ (join c!"\n" ((sortBy (·.aerodrome) l).map (runway P)) ++ c!"\n")

/-- `to_euroscope` for `Location`, sct.rs 256-263 -/
def loc : Loc F → Str
  | .fix f => f ++ (c!" " ++ f)
  | .coordinate c => point P c

/-- The text of one segment in `to_euroscope` for `ColouredLines`, sct.rs 268-275 -/
def segment (colour : Option Str) (s : Loc F × Loc F) : Str :=
  loc P s.1 ++ (c!" " ++ (loc P s.2 ++ (match colour with | some c => c!" " ++ c | none => [])))

/-- `tuple_windows` for pairs -/
def windows {A : Type} : List A → List (A × A)
  | [] => []
  | [_] => []
  | a :: b :: l => (a, b) :: windows (b :: l)

/-- The blanks in front of the further lines of a drawing, `format!("{:<40} {}", "", line)` -/
def indent : Str := padRight 40 [] ++ c!" "

/-- `to_euroscope` for `ColouredLines`, sct.rs 264-284 -/
def group (g : Lines.Group (Loc F)) : Str :=
  match g.lines.flatMap fun l => (windows l).map (segment P g.colour) with
  | [] => []
  | a :: l => join c!"\n" (a :: l.map (indent ++ ·))

/-- `to_euroscope` for `Geo`, `Sid`, `Star` and `Artcc`, sct.rs 296-315, 401-420, 432-451 and 463-482 -/
def drawing (d : Drawing F) : Str :=
  padRight 40 d.name ++ (c!" " ++ ((match d.lineGroups.head? with | some g => group P g | none => []) ++
    (if d.lineGroups.length > 1 then (d.lineGroups.drop 1).flatMap fun g => c!"\n" ++ (indent ++ group P g) else [])))

/-- The lists of drawings, sct.rs 285-295, 390-400, 421-431 and 452-461 -/
def drawings (l : List (Drawing F)) : Str := join c!"\n\n" ((sortBy (·.name) l).map (drawing P)) ++ c!"\n"

/-- `to_euroscope` for `Region`, sct.rs 327-347 -/
def region (r : Region F) : Str :=
  c!"REGIONNAME " ++ (r.name ++ (c!"\n" ++ (padRight 26 r.colourName ++ (c!" " ++ ((match r.polygon.head? with | some p => point P p | none => []) ++
    (if r.polygon.length > 1 then (r.polygon.drop 1).flatMap fun p => c!"\n" ++ (padRight 26 [] ++ (c!" " ++ point P p)) else []))))))

/-- `to_euroscope` for `Vec<Region>`, sct.rs 316-326 -/
def regions (l : List (Region F)) : Str := c!"[REGIONS]\n" ++ (join c!"\n" ((sortBy (·.name) l).map (region P)) ++ c!"\n")

/-- `to_euroscope` for `Label`, sct.rs 359-368 -/
def label (l : Label F) : Str := c!"\"" ++ (l.name ++ (c!"\" " ++ (loc P l.coordinate ++ (c!" " ++ l.colourName))))

/-- `to_euroscope` for `Vec<Label>`, sct.rs 348-358 -/
def labels (l : List (Label F)) : Str := c!"[LABELS]\n" ++ (join c!"\n" ((sortBy (·.name) l).map (label P)) ++ c!"\n")

/-- `to_euroscope` for `Airway`, sct.rs 380-389 -/
def airway (a : Airway F) : Str := padRight 10 a.designator ++ (c!" " ++ (loc P a.start ++ (c!" " ++ loc P a.stop)))

/-- `to_euroscope` for `Vec<Airway>`, sct.rs 369-379 -/
def airways (l : List (Airway F)) : Str := join c!"\n" ((sortBy (·.designator) l).map (airway P)) ++ c!"\n"

/-- `format!("#define {name}\t{}", c.to_euroscope())`, sct.rs 1175.  The number of a colour is not negative. -/
def colour (e : Str × Colour) : Str := c!"#define " ++ (e.1 ++ (c!"\t" ++ showNat (toEuroscope e.2).toNat))

/-- `Display for Sct`, sct.rs 1167-1193; `writeln!` adds a line end. -/
def write (s : Sct F) : Str :=
  info P s.info ++ c!"\n" ++ join c!"\n" (sortBy id (s.colours.map colour)) ++ c!"\n" ++ c!"\n" ++ vors P s.vors ++ c!"\n" ++
  ndbs P s.ndbs ++ c!"\n" ++ fixes P s.fixes ++ c!"\n" ++ airports P s.airports ++ c!"\n" ++ runways P s.runways ++ c!"\n" ++
  (c!"[SID]\n" ++ drawings P s.sids) ++ c!"\n" ++ (c!"[STAR]\n" ++ drawings P s.stars) ++ c!"\n" ++
  c!"[ARTCC HIGH]\n" ++ drawings P s.artccsHigh ++ c!"\n" ++ c!"[ARTCC]\n" ++ drawings P s.artccs ++ c!"\n" ++
  c!"[ARTCC LOW]\n" ++ drawings P s.artccsLow ++ c!"\n" ++ (c!"[GEO]\n" ++ drawings P s.geo) ++ c!"\n" ++
  regions P s.regions ++ c!"\n" ++ labels P s.labels ++ c!"\n" ++
  c!"[HIGH AIRWAY]\n" ++ airways P s.highAirways ++ c!"\n" ++ c!"[LOW AIRWAY]\n" ++ airways P s.lowAirways
end

end Verif.Model.SctWrite
