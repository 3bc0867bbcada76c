import Verif.Lemmas.SlotWriters
/-
The geometry of a scan in its entry: the group G.
-/
namespace S2N
open Py H5 Eznx Writer Spec
variable [UniDB]

theorem wGeometry_inv {e : HRef} {x : Obj} {s s' : H5} {r : Unit} (h : wGeometry e x s = (s', .ok r)) :
    ∃ t1 t2 g G dd diff, makeGroup e p!"G" containerClass (attr1 p!"description"
        p!"SPEC geometry arrays, meanings defined by SPEC diffractometer support") s = (t1, .ok g) ∧
      x.G = some G ∧ gValues G = .ok dd ∧ saveDict g dd t1 = (t2, .ok ()) ∧ x.diff = some diff ∧
      geoRest e diff t2 = (s', .ok r) := by
  unfold wGeometry at h
  obtain ⟨t1, g, h1, a1⟩ := HM.bind_inv h
  obtain ⟨t2, G, h2, a2⟩ := HM.bind_inv a1
  obtain ⟨e2, rfl⟩ := need_inv h2
  obtain ⟨dd, h3, a3⟩ := HM.bind_lift_inv a2
  obtain ⟨t3, u, h4, a4⟩ := HM.bind_inv a3
  obtain ⟨t4, diff, h5, a5⟩ := HM.bind_inv a4
  obtain ⟨e5, rfl⟩ := need_inv h5
  exact ⟨_, _, g, G, dd, diff, h1, e2, h3, h4, e5, a5⟩

/-- the writer of the geometry, in the group G -/
theorem slotted_geometry : SlottedAt (fun n => n = p!"G") (fun f => f = .geometry) Always Always
    (fun _ x W W' => W p!"G" = none ∧ ∃ G dd qs, x.G = some G ∧ gValues G = .ok dd ∧
      List.Forall₂ OpPut (dd.map (fun kv => (kv.1, kv.2, []))) qs ∧
        W' = upd W p!"G" (some (.grp (Sets.puts [] qs) [(p!"NX_class", .str p!"NXnote"), (p!"description",
          .str p!"SPEC geometry arrays, meanings defined by SPEC diffractometer support")]))) where
  data := by decide
  avoids := by
    refine one_avoids ?_ ?_
    · intro f hf
      cases f <;> first | exact absurd rfl hf | decide
    · intro _; decide
  step := by
    rintro f rfl c e hdr x y K v W s s' _ hr _ hid hp h hw
    replace hw : (HM.andThen (wGeometry e x) fun _ => HM.ret x) s = (s', .ok y) := hw
    obtain ⟨t, u, hb, h2⟩ := HM.andThen_inv hw
    obtain ⟨_, rfl⟩ := HM.ret_inv h2
    obtain ⟨t1, t2, g, G, dd, diff, k1, k2, k3, k4, k5, k6⟩ := wGeometry_inv hb
    obtain ⟨j1, j2, j3⟩ := h.newGroup hid rfl (Plain.single (by decide)) k1
    obtain ⟨K', qs, q1, q2⟩ := Slots.dict (X := fun n => n = p!"G") (N := p!"G") rfl _ j3 (upd_self ..) (by rw [upd_self, j2]) k4
    rw [upd_upd] at q2
    have q3 := (q2.step (conf_geoRest (c := c.slots _ K') q2.held.inv.plain ⟨by rw [hid]; exact q2.held.inv.notD, .inl ⟨hid, hp⟩⟩ x hr
      (show ¬ (p!"instrument" = p!"G") by decide) (show ¬ (p!"sample" = p!"G") by decide) k5) k6).1
    exact ⟨K', _, _, q3, trivial, j1, G, dd, qs, k2, k3, q1, rfl⟩
  init := trivial
  pL := fun _ _ _ => trivial
  withL := fun _ _ _ _ h _ => h

end S2N
