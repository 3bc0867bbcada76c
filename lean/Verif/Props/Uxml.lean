import Verif.Lemmas.Tree
import Verif.Props.EntryTables
/-
The UXML metadata of a scan or of a header in the file (C46, C78).
-/
namespace S2N.Props
open S2N Py H5 Eznx Writer Spec

theorem element_of_placed {s : H5} {b : Nat} {P p : List Str} {n : XmlNode} (hP : H5.walk s 0 P = some b) (h : Placed s b p n) :
    Element s (P ++ p) n := by
  refine ⟨fun ht => ?_, fun ht => ?_⟩
  · obtain ⟨i, v, a, h1, h2, h3⟩ := h.1 ht
    refine ⟨v, a, ?_, h3⟩
    unfold datasetAt objAt
    rw [walk_append, hP]
    simp only [Option.bind, h1, h2]
  · obtain ⟨i, c, a, h1, h2, h3⟩ := h.2 ht
    refine ⟨a, ?_, h3⟩
    unfold groupAt objAt
    rw [walk_append, hP]
    simp only [Option.bind, h1, h2]

theorem lastPlace_only {f : XmlNode → Option Str} {t : Str} {els : List (List Str × XmlNode)} {e : List Str × XmlNode} (he : e ∈ els)
    (ht : f e.2 = some t) (ho : ∀ e' ∈ els, f e'.2 = some t → e'.1 = e.1) : lastPlace f t els = some e.1 := by
  unfold lastPlace
  have hm : e ∈ els.filter (fun e => decide (f e.2 = some t)) := List.mem_filter.2 ⟨he, by simpa using ht⟩
  cases hl : (els.filter (fun e => decide (f e.2 = some t))).getLast? with
  | none => rw [List.getLast?_eq_none_iff.1 hl] at hm; cases hm
  | some e' =>
    have h1 := List.mem_filter.1 (List.mem_of_getLast? hl)
    have := ho e' h1.1 (by simpa using h1.2)
    simp [this]

variable [UniDB]

/-- the UXML group of an entry -/
theorem uxml_entry {env : Env} {reg : List HKey} (hr : reg.Perm HKey.all) (hx : SchemaNames env) {v : Versions}
    {ks : List Ref} {s : Sdf} {r : SState} (hs : Savable s) (hk : ∀ k ∈ ks, PlainText k.text)
    (h : save env reg v ks s = (r, none)) {k : Ref} (hm : k ∈ ks) {z : Obj} (hz : r.sdf.getScan k = .ok (some z))
    (o1 : DocumentOk (r.sdf.headerOf z).uxmlRoot) (o2 : DocumentOk z.uxmlRoot) :
    ((r.sdf.headerOf z).uxmlRoot = none ∨ z.uxmlRoot = none) ∧
    (∀ root, (r.sdf.headerOf z).uxmlRoot = some root ∨ z.uxmlRoot = some root →
      ∃ b c a, H5.walk r.h5 0 [entryName k, p!"UXML"] = some b ∧ r.h5[b]? = some (HNode.group c a) ∧ MoreAttrs uxmlAttrs a ∧
        (∀ e ∈ elements root, Placed r.h5 b e.1 e.2) ∧
        ∀ t p q, lastPlace linkTo t (elements root) = some p → lastPlace idOf t (elements root) = some q →
          ∃ j, H5.walk r.h5 b p = some j ∧ H5.walk r.h5 b q = some j) ∧
    ((r.sdf.headerOf z).uxmlRoot = none → z.uxmlRoot = none → objAt r.h5 [entryName k, p!"UXML"] = none) := by
  obtain ⟨m, x, y, e, chE, en, hw, hh, hi⟩ := entry_of' hr hx hs hk h hm hz
  have conv : ∀ {x : Obj}, DocumentOk x.uxmlRoot → NodesOk x := fun h t a v ch e => h _ e
  obtain ⟨hdr, w1, w2, K, vv, hl, hwh, q1, q2, hΦ, hv⟩ := en.grafts grafted_uxml
    (by rintro _ _ rfl rfl; rfl) hw hh (by decide) (by decide) (by decide) (by decide)
    (fun hdr hl => by obtain ⟨O, d, ep, e⟩ := hl; rw [e] at o1; exact conv o1) (conv o2)
  have hQ : (r.sdf.headerOf z).uxmlRoot = hdr.uxmlRoot := by obtain ⟨O, d, ep, e⟩ := hl; rw [e]
  rw [hQ]
  have key : ∀ {k : Kind} {x : Obj} {W W' : Option (List XmlNode)}, Writers k x →
      Outcome (fun f => f = .uxml) (fun _ x w w' => w = none ∧ ∃ t a v ch, x.uxmlRoot = some (.mk t a v ch) ∧ w' = some ch)
        x.h5.values x W W' →
      (W = none ∧ ∃ t a v ch, x.uxmlRoot = some (.mk t a v ch) ∧ W' = some ch) ∨ (x.uxmlRoot = none ∧ W' = W) := by
    intro k x W W' hw h
    by_cases e : x.uxmlRoot = none
    · exact .inr ⟨e, outcome_zero h (fun hm => (hw.more.1.1 hm) e)⟩
    · exact .inl (outcome_one h (hw.more.1.2 e))
  have hN := hv _ rfl
  have fin : ∀ ch, w2 = some ch → ∃ b c a, H5.walk r.h5 0 [entryName k, p!"UXML"] = some b ∧ r.h5[b]? = some (HNode.group c a) ∧
      MoreAttrs uxmlAttrs a ∧ UxmlDone b ch r.h5 := by
    rintro ch rfl
    obtain ⟨b, hb, hf⟩ := hΦ
    obtain ⟨⟨c, a, g1, g2⟩, g3⟩ := hf _ (fun _ _ => rfl)
    refine ⟨b, c, a, ?_, g1, g2, g3⟩
    unfold entryName
    rw [en.walk, walk_one en.entry (hN.trans hb)]
    rfl
  have one : ∀ {d : Option XmlNode} {t a v ch}, d = some (.mk t a v ch) → w2 = some ch → ∀ root, d = some root →
      ∃ b c a, H5.walk r.h5 0 [entryName k, p!"UXML"] = some b ∧ r.h5[b]? = some (HNode.group c a) ∧ MoreAttrs uxmlAttrs a ∧
        (∀ e ∈ elements root, Placed r.h5 b e.1 e.2) ∧
        ∀ t p q, lastPlace linkTo t (elements root) = some p → lastPlace idOf t (elements root) = some q →
          ∃ j, H5.walk r.h5 b p = some j ∧ H5.walk r.h5 b q = some j := by
    rintro d t a v ch rfl hw root e
    injection e with e
    subst e
    obtain ⟨b, c, a, f1, f2, f3, f4, f5⟩ := fin ch hw
    exact ⟨b, c, a, f1, f2, f3, f4, f5⟩
  rcases key hwh q1 with ⟨-, t, a, v0, ch, e1, rfl⟩ | ⟨e1, rfl⟩
  · rcases key hw q2 with ⟨c1, _⟩ | ⟨e2, rfl⟩
    · cases c1
    · refine ⟨.inr e2, ?_, fun e => ?_⟩
      · rintro root (hr | hr)
        · exact one e1 rfl root hr
        · rw [e2] at hr; cases hr
      · rw [e1] at e; cases e
  · rcases key hw q2 with ⟨_, t, a, v0, ch, e2, rfl⟩ | ⟨e2, rfl⟩
    · refine ⟨.inl e1, ?_, fun _ e => ?_⟩
      · rintro root (hr | hr)
        · rw [e1] at hr; cases hr
        · exact one e2 rfl root hr
      · rw [e2] at e; cases e
    · refine ⟨.inl e1, ?_, fun _ _ => ?_⟩
      · rintro root (hr | hr)
        · rw [e1] at hr; cases hr
        · rw [e2] at hr; cases hr
      · have hΦ : vv p!"UXML" = none := hΦ
        unfold objAt entryName
        rw [en.walk, walk_none en.entry (hN.trans hΦ)]

/-- C78: the UXML metadata of a scan or of its header are the group `UXML` of the entry: every dataset element is a
dataset at its place, with the value of its type, every group element is a group at its place, each with the
attributes of the element. -/
theorem C78_elements {env : Env} {reg : List HKey} (hr : reg.Perm HKey.all) (hx : SchemaNames env) {v : Versions}
    {ks : List Ref} {s : Sdf} {r : SState} (hs : Savable s) (hk : ∀ k ∈ ks, PlainText k.text)
    (h : save env reg v ks s = (r, none)) {k : Ref} (hm : k ∈ ks) {z : Obj} (hz : r.sdf.getScan k = .ok (some z))
    (o1 : DocumentOk (r.sdf.headerOf z).uxmlRoot) (o2 : DocumentOk z.uxmlRoot) :
    ((r.sdf.headerOf z).uxmlRoot = none ∨ z.uxmlRoot = none) ∧
    (∀ root, (r.sdf.headerOf z).uxmlRoot = some root ∨ z.uxmlRoot = some root →
      UxmlGroup r.h5 (entryName k) ∧ ∀ e ∈ elements root, Element r.h5 ([entryName k, p!"UXML"] ++ e.1) e.2) ∧
    ((r.sdf.headerOf z).uxmlRoot = none → z.uxmlRoot = none → objAt r.h5 [entryName k, p!"UXML"] = none) := by
  obtain ⟨h1, h2, h3⟩ := uxml_entry hr hx hs hk h hm hz o1 o2
  refine ⟨h1, fun root hroot => ?_, h3⟩
  obtain ⟨b, c, a, f1, f2, f3, f4, f5⟩ := h2 root hroot
  refine ⟨⟨a, ?_, f3.1 _ _ rfl, f3.1 _ _ rfl⟩, fun e he => element_of_placed f1 (f4 e he)⟩
  unfold groupAt objAt
  simp only [f1, f2]

/-- C46: for every id to which a hard link refers and that an element has, the place of the last such hard
link and that of the last element with the id are the same object. -/
theorem C46_last {env : Env} {reg : List HKey} (hr : reg.Perm HKey.all) (hx : SchemaNames env) {v : Versions}
    {ks : List Ref} {s : Sdf} {r : SState} (hs : Savable s) (hk : ∀ k ∈ ks, PlainText k.text)
    (h : save env reg v ks s = (r, none)) {k : Ref} (hm : k ∈ ks) {z : Obj} (hz : r.sdf.getScan k = .ok (some z))
    (o1 : DocumentOk (r.sdf.headerOf z).uxmlRoot) (o2 : DocumentOk z.uxmlRoot) {root : XmlNode}
    (hroot : (r.sdf.headerOf z).uxmlRoot = some root ∨ z.uxmlRoot = some root) (t : Str) (p q : List Str)
    (hp : lastPlace linkTo t (elements root) = some p) (hq : lastPlace idOf t (elements root) = some q) :
    SameObject r.h5 ([entryName k, p!"UXML"] ++ p) ([entryName k, p!"UXML"] ++ q) := by
  obtain ⟨h1, h2, h3⟩ := uxml_entry hr hx hs hk h hm hz o1 o2
  obtain ⟨b, c, a, f1, f2, f3, f4, f5⟩ := h2 root hroot
  obtain ⟨j, j1, j2⟩ := f5 t p q hp hq
  exact ⟨j, by rw [walk_append, f1]; exact j1, by rw [walk_append, f1]; exact j2⟩

/-- C46, if no other hard link has the same target and no other element the same id: a hard link is a link to
the object with that id.  The full statement, for all hard links, is false: see `C46_two_links`. -/
theorem C46_links_partial {env : Env} {reg : List HKey} (hr : reg.Perm HKey.all) (hx : SchemaNames env) {v : Versions}
    {ks : List Ref} {s : Sdf} {r : SState} (hs : Savable s) (hk : ∀ k ∈ ks, PlainText k.text)
    (h : save env reg v ks s = (r, none)) {k : Ref} (hm : k ∈ ks) {z : Obj} (hz : r.sdf.getScan k = .ok (some z))
    (o1 : DocumentOk (r.sdf.headerOf z).uxmlRoot) (o2 : DocumentOk z.uxmlRoot) {root : XmlNode}
    (hroot : (r.sdf.headerOf z).uxmlRoot = some root ∨ z.uxmlRoot = some root) {l e : List Str × XmlNode} {t : Str}
    (hl : l ∈ elements root) (hlt : linkTo l.2 = some t) (he : e ∈ elements root) (het : idOf e.2 = some t)
    (honly : ∀ l' ∈ elements root, linkTo l'.2 = some t → l'.1 = l.1)
    (hone : ∀ e' ∈ elements root, idOf e'.2 = some t → e'.1 = e.1) :
    SameObject r.h5 ([entryName k, p!"UXML"] ++ l.1) ([entryName k, p!"UXML"] ++ e.1) :=
  C46_last hr hx hs hk h hm hz o1 o2 hroot t l.1 e.1 (lastPlace_only hl hlt honly) (lastPlace_only he het hone)

end S2N.Props
