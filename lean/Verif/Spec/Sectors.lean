import Verif.Model.Sectors
/-!
# What the sectors and volumes of an ESE file should be
-/

namespace Verif.Sectors.Spec

variable {P B : Type}

/-- The ESE sector `id` exists and has a valid polygon `p`. -/
def HasPolygon (polygon : EseSector P → Option B) (entries : List (Str × EseSector P))
    (id : Str) (e : EseSector P) (p : B) : Prop :=
  (id, e) ∈ entries ∧ polygon e = some p

/-- Two ESE sectors are controlled alike. -/
def SameControl (e e' : EseSector P) : Prop :=
  e.ownerPriority = e'.ownerPriority ∧ e.runwayFilter = e'.runwayFilter

/-- What `from_ese` must return. -/
structure IsResult (polygon : EseSector P → Option B) (ccw : B → B)
    (entries : List (Str × EseSector P)) (volumes : Map Str (Volume B))
    (sectors : Map Str Sector) : Prop where
  /-- volumes are exactly the ESE sectors with a polygon, with their id and levels -/
  volume_iff : ∀ id v, volumes.get? id = some v ↔
    ∃ e p, HasPolygon polygon entries id e p ∧ v = ⟨id, e.bottom, e.top, ccw p⟩
  /-- every volume belongs to exactly one sector -/
  volume_sector : ∀ id v, volumes.get? id = some v →
    ∃ sid s, sectors.get? sid = some s ∧ id ∈ s.volumes ∧
      ∀ sid' s', sectors.get? sid' = some s' → id ∈ s'.volumes → sid' = sid
  /-- sectors have no other volumes, and at least one: the one they are named after -/
  sector_volumes : ∀ sid s, sectors.get? sid = some s →
    s.id = sid ∧ sid ∈ s.volumes ∧ ∀ id ∈ s.volumes, ∃ v, volumes.get? id = some v
  /-- volumes share a sector exactly if they are controlled alike -/
  share_iff : ∀ id id' e e' p p', HasPolygon polygon entries id e p →
    HasPolygon polygon entries id' e' p' →
    ((∃ sid s, sectors.get? sid = some s ∧ id ∈ s.volumes ∧ id' ∈ s.volumes) ↔ SameControl e e')
  /-- a sector has the control data of its volumes and all their airports -/
  sector_data : ∀ sid s id e p, sectors.get? sid = some s → id ∈ s.volumes →
    HasPolygon polygon entries id e p →
    s.positionPriority = e.ownerPriority ∧ s.runwayFilter = [e.runwayFilter] ∧
    (∀ a ∈ e.departureAirports, a ∈ s.departureAerodromes) ∧
    (∀ a ∈ e.arrivalAirports, a ∈ s.arrivalAerodromes)
  /-- and no other airports -/
  airports : ∀ sid s, sectors.get? sid = some s →
    (∀ a ∈ s.departureAerodromes, ∃ id ∈ s.volumes, ∃ e p, HasPolygon polygon entries id e p ∧
      a ∈ e.departureAirports) ∧
    (∀ a ∈ s.arrivalAerodromes, ∃ id ∈ s.volumes, ∃ e p, HasPolygon polygon entries id e p ∧
      a ∈ e.arrivalAirports)

end Verif.Sectors.Spec
