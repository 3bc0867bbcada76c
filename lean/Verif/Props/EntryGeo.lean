import Verif.Props.EntryXpcs
import Verif.Props.Last
import Verif.Lemmas.SlotGeo
/-
The geometry arrays in the entry: #G lines.
-/
namespace S2N.Props
open S2N Py H5 Eznx Writer Spec
section
variable [UniDB]

/-- numbers as a dataset -/
def numsData (l : List PyFloat) : HData := .nums ⟨l.map .flt, [l.length]⟩

/-- the attributes of the group of the arrays -/
def arraysAttrs : Dict AVal := [(p!"NX_class", .str p!"NXnote"),
  (p!"description", .str p!"SPEC geometry arrays, meanings defined by SPEC diffractometer support")]

theorem gValues_ok : ∀ (G : Dict Str) {dd : Dict PData}, gValues G = .ok dd → ∃ d : Dict (List PyFloat),
    List.Forall₂ (fun (p : Str × Str) (q : Str × List PyFloat) => q.1 = p.1 ∧ NumbersOf p.2 q.2) G d ∧
      dd = d.map (fun kv => (kv.1, flts kv.2))
  | [], dd, h => by
    cases h
    exact ⟨[], .nil, rfl⟩
  | (k, t) :: G, dd, h => by
    unfold gValues at h
    rw [mapE] at h
    cases hx : mapE Py.float (splitWs t) with
    | error e => rw [hx] at h; cases h
    | ok xs =>
      rw [hx] at h
      simp only at h
      split at h
      · cases h
      · next dd' hy =>
        cases h
        obtain ⟨d, h1, h2⟩ := gValues_ok G (dd := dd') hy
        exact ⟨(k, xs) :: d, .cons ⟨rfl, mapE_float_ok _ _ hx⟩ h1, by rw [h2]; rfl⟩

/-- a writer is there if its label is -/
theorem writer_iff {k : Kind} {x : Obj} (hw : Writers k x) (f : H5Fn) (hf : ∀ g, labelOf g = labelOf f → g = f) :
    f ∈ x.h5.values ↔ x.h5.get? (labelOf f) ≠ none := by
  constructor
  · intro h
    obtain ⟨p, h1, h2⟩ := List.mem_map.1 h
    have h3 := hw.label p h1
    rw [h2] at h3
    rw [← h3, Ne, Dict.get?_eq_none_iff]
    intro hc
    exact hc (List.mem_map.2 ⟨p, h1, rfl⟩)
  · intro h
    cases hg : x.h5.get? (labelOf f) with
    | none => exact absurd hg h
    | some g =>
      have h1 := Dict.mem_of_get? hg
      have h2 := hw.label _ h1
      simp only at h2
      exact List.mem_map.2 ⟨_, h1, hf g h2.symm⟩

theorem geometry_iff {k : Ref} {S : SState} {m : Str} {x y z : Obj} {e : Nat} {chE : Dict Nat}
    (en : EntryOf k S m x y z e chE) (hw : Writers .scan z) : .geometry ∈ z.h5.values ↔ z.G.getD [] ≠ [] := by
  refine (writer_iff hw .geometry (by intro g; cases g <;> first | (intro _; rfl) | (intro h; exact absurd h (by decide)))).trans ?_
  obtain ⟨L, hL⟩ := en.z_eq
  have h5 : z.h5 = x.h5 := by rw [hL]
  have hG : z.G = x.G := by rw [hL]
  rw [h5, hG]
  show x.h5.get? p!"diffractometer geometry" ≠ none ↔ _
  exact ⟨en.dscan.geo.lines, en.dscan.geo.done en.done⟩

/-- C85: the numbers of the #G lines of a scan are the datasets of the group `G` of its entry; without #G lines there is no
such group. -/
theorem C85_arrays {env : Env} {reg : List HKey} (hr : reg.Perm HKey.all) (hx : SchemaNames env) {v : Versions}
    {ks : List Ref} {s : Sdf} {r : SState} (hs : Savable s) (hk : ∀ k ∈ ks, PlainText k.text)
    (h : save env reg v ks s = (r, none)) {k : Ref} (hm : k ∈ ks) {z : Obj} (hz : r.sdf.getScan k = .ok (some z)) :
    (∀ G, z.G = some G → G ≠ [] → ∃ d : Dict (List PyFloat),
      List.Forall₂ (fun (p : Str × Str) (q : Str × List PyFloat) => q.1 = p.1 ∧ NumbersOf p.2 q.2) G d ∧
      DictAt r.h5 (entryName k) p!"G" arraysAttrs numsData d) ∧
    (z.G.getD [] = [] → objAt r.h5 [entryName k, p!"G"] = none) := by
  obtain ⟨m, x, y, e, chE, en, hw, hh, hi⟩ := entry_of' hr hx hs hk h hm hz
  obtain ⟨hdr, W1, W2, hl, hwh, q1, q2, hsh⟩ := en.slotsAt slotted_geometry
    (by rintro _ _ rfl rfl; rfl) hw hh (by decide) (by decide) (by decide) (by decide)
    (fun _ _ => trivial) trivial
  have hz1 : W1 = Known.nil := outcome_zero q1 fun hm => by
    have := hwh.date (.inr hm)
    cases this
  subst hz1
  have hsh := hsh _ rfl
  have hg := geometry_iff en hw
  constructor
  · intro G hG hne
    obtain ⟨_, G', dd, qs, e1, e2, e3, e4⟩ := outcome_one q2 (hg.2 (by rw [hG]; exact hne))
    rw [hG] at e1
    injection e1 with e1
    subst e1
    obtain ⟨d, d1, d2⟩ := gValues_ok G e2
    subst d2
    rw [e4, upd_self] at hsh
    rw [List.map_map] at e3
    refine ⟨d, d1, dict_shown (data := flts) (fun t => ?_) (fun t a => rfl) ?_ e3 hsh⟩
    · show (PData.nums (t.map .flt)).toH = _
      rw [PData.toH, unify_flt, List.length_map]
      rfl
    · obtain ⟨_, _, _, _, _, _, _, _, _, _, _, _, _, _, _, hn⟩ := hw.more
      rw [hG] at hn
      have : d.keys = Dict.keys G := by
        clear hn e3 e4 hsh hne hG e2
        induction d1 with
        | nil => rfl
        | cons h1 _ ih => simp only [Dict.keys, List.map_cons, h1.1] at ih ⊢; rw [ih]
      rw [this]
      exact hn
  · intro hG
    have : W2 = Known.nil := outcome_zero q2 fun hm => hg.1 hm hG
    rw [this] at hsh
    exact hsh

end

/-- numbers 0 1 2 ... -/
def upRow (m : Nat) : Str := join [' '] ((List.range m).map natStr)

/-- a scan of a four circle diffractometer, and one without geometry -/
def geoText : Str := join p!"\n" [p!"#F demo.dat", p!"#E 1276730676", p!"#D Wed Jun 16 18:24:36 2010", p!"#C fourc  User = me",
  p!"#O0 tth  th  chi  phi", [], p!"#S 1 ascan  th 0 1 2 1", p!"#D Wed Jun 16 18:24:36 2010",
  p!"#G0 " ++ upRow 27, p!"#G1 " ++ upRow 34, p!"#G3 " ++ upRow 9, p!"#G4 " ++ upRow 26, p!"#P0 1 2 3 4",
  p!"#N 2", p!"#L th  I0", p!"0.5 1", p!"1.5 3",
  [], p!"#S 2 ascan  th 0 1 2 1", p!"#D Wed Jun 16 18:24:36 2010", p!"#N 2", p!"#L th  I0", p!"0.5 1", p!"1.5 3", []]

/-- the file object -/
def geoFile : Except PyErr Sdf :=
  @Sdf.openFile asciiDB saveEnv HKey.all p!"demo.dat" (fileAt geoText 1) (fileAt geoText 1)

/-- what the examples look at after a save -/
def geoDemo (ks : List Ref) : Option (Bool × Option PyErr × H5 × Sdf) :=
  match geoFile with
  | .error _ => none
  | .ok s =>
    let r := @save asciiDB saveEnv HKey.all saveVersions ks s
    some (@savableB asciiDB s, r.2, r.1.h5, r.1.sdf)

/-- C85: the hypotheses are met by this file -/
theorem C85_nonvacuous : letI : UniDB := asciiDB
    ∃ s r z z2, Savable s ∧ save saveEnv HKey.all saveVersions [.int 1, .int 2] s = (r, none) ∧
      r.sdf.getScan (.int 1) = .ok (some z) ∧ r.sdf.getScan (.int 2) = .ok (some z2) ∧
      (z.G.getD []).keys = [p!"G0", p!"G1", p!"G3", p!"G4"] ∧ z2.G.getD [] = [] := by
  letI : UniDB := asciiDB
  have hd : (match geoDemo [.int 1, .int 2] with
    | none => false
    | some (b, e, _, sdf) =>
      b && e.isNone &&
      (match sdf.getScan (.int 1), sdf.getScan (.int 2) with
      | .ok (some z), .ok (some z2) =>
        decide ((z.G.getD []).keys = [p!"G0", p!"G1", p!"G3", p!"G4"]) && decide (z2.G.getD [] = [])
      | _, _ => false)) = true := by decide +kernel
  unfold geoDemo at hd
  cases hs : geoFile with
  | error e => rw [hs] at hd; cases hd
  | ok s =>
    rw [hs] at hd
    simp only at hd
    cases hr : save saveEnv HKey.all saveVersions [.int 1, .int 2] s with
    | mk r e =>
      rw [hr] at hd
      simp only at hd
      cases hz : r.sdf.getScan (.int 1) with
      | error e => rw [hz] at hd; simp at hd
      | ok o =>
        rw [hz] at hd
        cases o with
        | none => simp at hd
        | some z =>
          cases hz2 : r.sdf.getScan (.int 2) with
          | error e => rw [hz2] at hd; simp at hd
          | ok o =>
            rw [hz2] at hd
            cases o with
            | none => simp at hd
            | some z2 =>
              simp only [Bool.and_eq_true, decide_eq_true_eq, Option.isNone_iff_eq_none] at hd
              obtain ⟨⟨b1, b2⟩, b3, b4⟩ := hd
              subst b2
              exact ⟨s, r, z, z2, savable_of_b b1, hr, hz, hz2, b3, b4⟩

/-- C85: what is written of that file -/
theorem C85_example :
    (geoDemo [.int 1, .int 2]).map (fun r => decide (childrenAt r.2.2.1 [p!"S1", p!"G"] = [p!"G0", p!"G1", p!"G3", p!"G4"])) = some true ∧
    (geoDemo [.int 1, .int 2]).map (fun r => decide (datasetAt r.2.2.1 [p!"S1", p!"G", p!"G3"] =
      some (.nums ⟨[0, 1, 2, 3, 4, 5, 6, 7, 8].map (fun i => .flt (.fin i)), [9]⟩, [(p!"spec_name", .str p!"G3")]))) = some true ∧
    (geoDemo [.int 1, .int 2]).map (fun r => (objAt r.2.2.1 [p!"S2", p!"G"]).isNone) = some true := by decide +kernel

end S2N.Props
