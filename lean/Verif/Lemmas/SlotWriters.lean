import Verif.Lemmas.SlotRun
/-
What each writer leaves under its own names of the entry.
-/
namespace S2N
open Py H5 Eznx Writer Spec

/-- a text dataset -/
def textDs (t : Str) (a : Dict AVal) : HData × Dict AVal := (.text [ascii t], Dict.update [] a)

section
variable {c : Scope} {X : Str → Prop} {K : Nat → Prop} {v : Str → Option Nat} {W : Known} {s s' : H5}

/-- several datasets in a group of the entry -/
theorem Slots.each {α : Type} {N : Str} (hN : X N) {g : HRef} {f : α → HM Unit} {name : α → Str} {data : α → PData}
    {attr : α → Dict AVal} (hf : ∀ a, f a = (do let _ ← writeDataset g (name a) (data a) (attr a); pure ())) :
    ∀ (l : List α) {K : Nat → Prop} {W : Known} {s s' : H5} {V : Sets} {A : Dict AVal} {r : Unit},
    Slots c X K v W s → W N = some (.grp V A) → v N = some g.id →
    (∀ a ∈ l, Single (name a)) → HM.each f l s = (s', .ok r) →
    ∃ K' qs, List.Forall₂ (fun a (q : Str × (HData × Dict AVal)) => q.1 = name a ∧ (data a).toH = .ok q.2.1 ∧
        q.2.2 = Dict.update [] (noteAttrs (data a) (attr a))) l qs ∧
      Slots c X K' v (upd W N (some (.grp (V.puts qs) A))) s'
  | [], K, W, s, s', V, A, r, h, hW, hv, hs, hw => by
    obtain ⟨_, rfl⟩ := HM.ret_inv hw
    refine ⟨K, [], .nil, ?_⟩
    have : upd W N (some (.grp (V.puts []) A)) = W := by
      funext n
      unfold upd
      split
      · next e => rw [e, hW]; rfl
      · rfl
    rw [this]; exact h
  | a :: l, K, W, s, s', V, A, r, h, hW, hv, hs, hw => by
    obtain ⟨t, h1, h2⟩ := HM.each_inv_cons hw
    rw [hf] at h1
    obtain ⟨t', u, h3, h4⟩ := HM.bind_inv h1
    obtain ⟨_, rfl⟩ := HM.ret_inv h4
    obtain ⟨x, x1, x2⟩ := h.inside hN hW hv (hs a (by simp)) h3
    obtain ⟨K', qs, q1, q2⟩ := Slots.each hN hf l x2 (upd_self ..) hv (fun b hb => hs b (by simp [hb])) h2
    refine ⟨K', (name a, (x, Dict.update [] (noteAttrs (data a) (attr a)))) :: qs, .cons ⟨rfl, x1, rfl⟩ q1, ?_⟩
    have : upd (upd W N (some (.grp (V.put (name a) x (Dict.update [] (noteAttrs (data a) (attr a)))) A))) N
        (some (.grp ((V.put (name a) x (Dict.update [] (noteAttrs (data a) (attr a)))).puts qs) A)) =
        upd W N (some (.grp (V.puts ((name a, (x, Dict.update [] (noteAttrs (data a) (attr a)))) :: qs)) A)) := by
      funext n
      unfold upd
      split <;> rfl
    rw [← this]; exact q2

/-- datasets of texts -/
theorem forall2_texts {α : Type} {name : α → Str} {text : α → Str} {attr : α → Dict AVal} {l : List α} {qs : Sets}
    (h : List.Forall₂ (fun a (q : Str × (HData × Dict AVal)) => q.1 = name a ∧ (PData.str (text a)).toH = .ok q.2.1 ∧
        q.2.2 = Dict.update [] (noteAttrs (PData.str (text a)) (attr a))) l qs) :
    qs = l.map (fun a => (name a, textDs (text a) (attr a))) := by
  induction h with
  | nil => rfl
  | @cons a q l qs h1 h2 ih =>
    obtain ⟨q1, q2, q3⟩ := q
    obtain ⟨e1, e2, e3⟩ := h1
    simp only at e1 e2 e3
    rw [List.map_cons, ih, e1, e3]
    simp only [PData.toH, Except.ok.injEq] at e2
    rw [← e2]
    rfl

/-- the texts of a group by their names -/
def texts (d : Dict Str) : Sets := d.map (fun kv => (kv.1, textDs kv.2 []))

/-- a cross reference -/
theorem Slots.xref (h : Slots c X K v W s) {e : HRef} (hid : e.id = c.e) {N : Str} (hN : X N) (hs : Single N)
    {desc comment : Str} {d : Dict Str} (hd : ∀ k ∈ d.keys, Single k) {r : Unit}
    (hw : wXref e N desc comment d s = (s', .ok r)) :
    W N = none ∧ ∃ K' v', Slots c X K' v' (upd W N (some (.grp (Sets.puts [] (texts (sortedItems d)))
      (Dict.update [(p!"NX_class", AVal.str containerClass)] [(p!"description", .str desc), (p!"comment", .str comment)])))) s' := by
  unfold wXref at hw
  obtain ⟨t, g, h1, h2⟩ := HM.bind_inv hw
  have ⟨t', ht'⟩ : ∃ t' : H5, t' = s := ⟨s, rfl⟩
  subst ht'
  obtain ⟨k1, k2, k3⟩ := h.newGroup hid hN hs h1
  obtain ⟨K', qs, q1, q2⟩ := Slots.each (name := fun kv : Str × Str => kv.1) (data := fun kv => .str kv.2)
    (attr := fun _ => []) hN (fun _ => rfl) (sortedItems d) k3 (upd_self ..) (by rw [upd_self, k2])
    (fun kv hkv => hd _ (List.mem_map.2 ⟨kv, (sortBy_perm _ d).mem_iff.1 hkv, rfl⟩)) h2
  have hq := forall2_texts q1
  subst hq
  refine ⟨k1, K', upd v N (some t'.length), ?_⟩
  have : ∀ w1 w2 : Option Content, upd (upd W N w1) N w2 = upd W N w2 := by
    intro w1 w2; funext n; unfold upd; split <;> rfl
  rw [this] at q2
  exact q2

theorem upd_upd {α : Type} (f : Str → α) (N : Str) (a b : α) : upd (upd f N a) N b = upd f N b := by
  funext n; unfold upd; split <;> rfl

theorem upd_eta {α : Type} (f : Str → α) {N : Str} {a : α} (h : f N = a) : upd f N a = f := by
  funext n; unfold upd; split
  · next e => rw [e, h]
  · rfl

/-- numbered texts -/
def numbered (tag key : Str) (l : List Str) : Sets :=
  ((List.range l.length).zip l).map (fun p => (tag ++ p!"_" ++ natStr (p.1 + 1),
    textDs p.2 (attr1 p!"description" (p!"#" ++ key ++ p!" line " ++ natStr (p.1 + 1)))))

theorem single_tag {tag : Str} (ht : Plain tag) (i : Nat) : Single (tag ++ p!"_" ++ natStr i) := by
  have hx : tag ++ p!"_" ++ natStr i = tag ++ (p!"_" ++ natStr i) := by simp
  refine ⟨?_, ?_, ?_⟩
  · intro e
    simp at e
  · intro e
    rw [hx] at e
    cases tag with
    | nil => exact ht.ne rfl
    | cons a as => simp at e
  · simp only [List.mem_append, not_or]
    refine ⟨⟨fun hm => (ht.chars _ hm).1 rfl, by decide⟩, fun hm => ?_⟩
    exact absurd (natStr_isDig i _ hm) (by decide)

/-- the text lines of a header or a scan, in a group that is made if it is missing -/
theorem Slots.lines (h : Slots c X K v W s) {e : HRef} (hid : e.id = c.e) {N : Str} (hN : X N) (hs : Single N)
    {desc tag key : Str} (ht : Plain tag) {kind : Kind} {o : Option (List Str)} (hW : ∀ d b, W N ≠ some (.ds d b)) {r : Unit}
    (hw : wLines e N desc tag key kind o s = (s', .ok r)) :
    ∃ l V A K' v', o = some l ∧ Slots c X K' v'
      (upd W N (some (.grp (Sets.puts V (numbered (if kind = .header then p!"header" else tag) key l)) A))) s' ∧
      ((W N = none ∧ V = [] ∧ A = Dict.update [(p!"NX_class", AVal.str p!"NXnote")] (attr1 p!"description" desc)) ∨
        ∃ A0, W N = some (.grp V A0) ∧ A = A0.update (attr1 p!"description" desc)) := by
  unfold wLines at hw
  obtain ⟨t, g, h1, h2⟩ := HM.bind_inv hw
  obtain ⟨K1, v1, V, A, k1, k2, k3⟩ := h.open hid hN hs hW h1
  obtain ⟨t1, l, h3, h4⟩ := HM.bind_inv h2
  obtain ⟨h5, rfl⟩ := need_inv h3
  have htag : Plain (if kind = .header then p!"header" else tag) := by
    split
    · decide
    · exact ht
  obtain ⟨K', qs, q1, q2⟩ := Slots.each (name := fun p : Nat × Str => (if kind = .header then p!"header" else tag) ++ p!"_" ++ natStr (p.1 + 1))
    (data := fun p => .str p.2)
    (attr := fun p => attr1 p!"description" (p!"#" ++ key ++ p!" line " ++ natStr (p.1 + 1))) hN (fun _ => rfl)
    ((List.range l.length).zip l) k1 (upd_self ..) k2 (fun p _ => single_tag htag _) h4
  have hq := forall2_texts q1
  subst hq
  rw [upd_upd] at q2
  exact ⟨l, V, A, K', v1, h5, q2, k3⟩

end

section
variable [UniDB] {c : Scope} {X : Str → Prop} {v : Str → Option Nat}

/-- the datasets of a dictionary in a group of the entry -/
theorem Slots.dict {N : Str} (hN : X N) {g : HRef} :
    ∀ (l : Dict PData) {K : Nat → Prop} {W : Known} {s s' : H5} {V : Sets} {A : Dict AVal} {r : Unit},
    Slots c X K v W s → W N = some (.grp V A) → v N = some g.id → saveDict g l s = (s', .ok r) →
    ∃ K' qs, List.Forall₂ OpPut (l.map (fun kv => (kv.1, kv.2, []))) qs ∧
      Slots c X K' v (upd W N (some (.grp (V.puts qs) A))) s'
  | [], K, W, s, s', V, A, r, h, hW, hv, hw => by
    obtain ⟨_, rfl⟩ := HM.ret_inv hw
    exact ⟨K, [], .nil, by rw [upd_eta]; exact h; exact hW⟩
  | a :: l, K, W, s, s', V, A, r, h, hW, hv, hw => by
    obtain ⟨t, h1, h2⟩ := HM.each_inv_cons hw
    unfold writeDs at h1
    obtain ⟨n, hn, h1⟩ := HM.bind_lift_inv h1
    obtain ⟨t', u, h3, h4⟩ := HM.bind_inv h1
    obtain ⟨_, rfl⟩ := HM.ret_inv h4
    obtain ⟨x, x1, x2⟩ := h.inside hN hW hv (clean_single hn) h3
    obtain ⟨K', qs, q1, q2⟩ := Slots.dict hN l x2 (upd_self ..) hv h2
    rw [upd_upd] at q2
    exact ⟨K', (n, (x, Dict.update [] (noteAttrs a.2 ((p!"spec_name", AVal.str a.1) :: [])))) :: qs, .cons ⟨hn, x1, rfl⟩ q1, q2⟩



/-- no condition -/
def Always {α : Sort _} : α → Prop := fun _ => True

omit [UniDB] in
/-- a condition that only concerns one name -/
theorem one_avoids {N : Str} {F : H5Fn → Prop} (h1 : ∀ f, ¬ F f → N ∉ usedBy f)
    (h2 : ¬ F .unrec → startsWith N p!"unrecognized_" = false) : ∀ f, ¬ F f →
    (∀ n ∈ usedBy f, ¬ (fun n => n = N) n) ∧ (f = .unrec → ∀ i, ¬ (fun n => n = N) (p!"unrecognized_" ++ natStr i)) := by
  intro f hf
  refine ⟨fun n hn e => h1 f hf (e ▸ hn), ?_⟩
  rintro rfl i e
  have := h2 hf
  rw [← e] at this
  simp [startsWith] at this

/-- #D -/
theorem slotted_date : Slotted (fun n => n = p!"date") (fun f => f = .date) Always Always
    (fun _ x W W' => ∃ d, iso8601 x.date = .ok d ∧ W' = upd W p!"date" (some (.ds (.text [ascii d]) []))) where
  data := by simp
  avoids := one_avoids (by intro f hf; cases f <;> first | exact absurd rfl hf | decide) (by intro _; decide)
  step := by
    rintro f rfl c e hdr x y K v W s s' _ _ hid h hw
    obtain ⟨t, u, h1, h2⟩ := HM.andThen_inv hw
    obtain ⟨_, rfl⟩ := HM.ret_inv h2
    unfold wDate at h1
    obtain ⟨d, hd, h1⟩ := HM.bind_lift_inv h1
    obtain ⟨t', u, h3, h4⟩ := HM.bind_inv h1
    obtain ⟨_, rfl⟩ := HM.ret_inv h4
    obtain ⟨x', x1, _, x2⟩ := h.write hid rfl (by decide : Plain p!"date").single h3
    simp only [PData.toH, Except.ok.injEq] at x1
    exact ⟨_, _, _, x2, trivial, d, hd, by rw [← x1]; rfl⟩
  init := trivial
  pL := fun _ _ _ => trivial
  withL := fun _ _ _ _ h _ => h

/-- #C -/
theorem slotted_comments : Slotted (fun n => n = p!"comments") (fun f => f = .comments) Always Always
    (fun _ x W W' => W' = upd W p!"comments" (some (.ds (.text [ascii (join p!"\n" x.comments)]) []))) where
  data := by simp
  avoids := one_avoids (by intro f hf; cases f <;> first | exact absurd rfl hf | decide) (by intro _; decide)
  step := by
    rintro f rfl c e hdr x y K v W s s' _ _ hid h hw
    obtain ⟨t, u, h1, h2⟩ := HM.andThen_inv hw
    obtain ⟨_, rfl⟩ := HM.ret_inv h2
    unfold wComments at h1
    obtain ⟨t', u, h3, h4⟩ := HM.bind_inv h1
    obtain ⟨_, rfl⟩ := HM.ret_inv h4
    obtain ⟨x', x1, _, x2⟩ := h.write hid rfl (by decide : Plain p!"comments").single h3
    simp only [PData.toH, Except.ok.injEq] at x1
    exact ⟨_, _, _, x2, trivial, by rw [← x1]; rfl⟩
  init := trivial
  pL := fun _ _ _ => trivial
  withL := fun _ _ _ _ h _ => h

/-- the dataset Q -/
def qDs (q : List PyFloat) : Content :=
  .ds (.nums ⟨q.map .flt, [q.length]⟩) [(p!"description", .str p!"hkl at start of scan")]

/-- #Q -/
theorem slotted_hkl : Slotted (fun n => n = p!"Q") (fun f => f = .hkl) Always Always
    (fun _ x W W' => ∃ q, x.Q = some q ∧ W' = upd W p!"Q" (some (qDs q))) where
  data := by simp
  avoids := one_avoids (by intro f hf; cases f <;> first | exact absurd rfl hf | decide) (by intro _; decide)
  step := by
    rintro f rfl c e hdr x y K v W s s' _ _ hid h hw
    obtain ⟨t, u, h1, h2⟩ := HM.andThen_inv hw
    obtain ⟨_, rfl⟩ := HM.ret_inv h2
    unfold wHkl at h1
    obtain ⟨t1, q, hq, h5⟩ := HM.bind_inv h1
    obtain ⟨hq0, rfl⟩ := need_inv hq
    obtain ⟨t', u, h3, h4⟩ := HM.bind_inv h5
    obtain ⟨_, rfl⟩ := HM.ret_inv h4
    obtain ⟨x', x1, _, x2⟩ := h.write hid rfl (by decide : Plain p!"Q").single h3
    simp only [flts, PData.toH, Except.ok.injEq] at x1
    exact ⟨_, _, _, x2, trivial, q, hq0, by rw [← x1, unify_flt, List.length_map]; rfl⟩
  init := trivial
  pL := fun _ _ _ => trivial
  withL := fun _ _ _ _ h _ => h


/-- the attributes of the group of a cross reference -/
def xrefAttrs (desc comment : Str) : Dict AVal :=
  Dict.update [(p!"NX_class", AVal.str containerClass)] [(p!"description", .str desc), (p!"comment", .str comment)]

/-- the counters -/
theorem slotted_counters : Slotted (fun n => n = p!"counter_cross_reference") (fun f => f = .counterJ ∨ f = .counterj)
    (fun x => ∀ k ∈ (x.counterXref.getD []).keys, Single k) Always
    (fun f x W W' => (f = .counterJ ∧ x.counterXref.getD [] = [] ∧ W' = W) ∨
      (W p!"counter_cross_reference" = none ∧ W' = upd W p!"counter_cross_reference"
        (some (.grp (Sets.puts [] (texts (sortedItems (x.counterXref.getD []))))
          (xrefAttrs p!"cross-reference SPEC counter mnemonics and names"
            p!"keys are SPEC counter mnemonics, values are SPEC counter names"))))) where
  data := by simp
  avoids := one_avoids (by intro f hf; cases f <;> first | exact absurd (.inl rfl) hf | exact absurd (.inr rfl) hf | decide) (by intro _; decide)
  step := by
    rintro f hf c e hdr x y K v W s s' hP _ hid h hw
    obtain ⟨b, hb, hf'⟩ : ∃ b, wCounterXref b e x s = (s', .ok ()) ∧ (b = true ↔ f = .counterj) := by
      rcases hf with rfl | rfl
      all_goals
        obtain ⟨t, u, h1, h2⟩ := HM.andThen_inv hw
        obtain ⟨_, rfl⟩ := HM.ret_inv h2
      · exact ⟨false, h1, by simp⟩
      · exact ⟨true, h1, by simp⟩
    · have _ := hb
      unfold wCounterXref at hb
      simp only at hb
      split at hb
      · next h1 =>
        obtain ⟨_, rfl⟩ := HM.ret_inv hb
        refine ⟨K, v, W, h, trivial, .inl ⟨?_, h1.2, rfl⟩⟩
        rcases hf with hf | hf
        · exact hf
        · rw [hf'.2 hf] at h1; cases h1.1
      · obtain ⟨k1, K', v', k2⟩ := h.xref hid rfl (by decide : Plain p!"counter_cross_reference").single hP hb
        exact ⟨K', v', _, k2, trivial, .inr ⟨k1, rfl⟩⟩
  init := trivial
  pL := fun _ _ h => h
  withL := fun _ _ _ _ h _ => h

/-- the positioners -/
theorem slotted_positioners : Slotted (fun n => n = p!"positioner_cross_reference") (fun f => f = .positionerXref)
    (fun x => ∀ k ∈ (x.positionerXref.getD []).keys, Single k) Always
    (fun _ x W W' => (x.positionerXref.getD [] = [] ∧ W' = W) ∨
      (W p!"positioner_cross_reference" = none ∧ W' = upd W p!"positioner_cross_reference"
        (some (.grp (Sets.puts [] (texts (sortedItems (x.positionerXref.getD []))))
          (xrefAttrs p!"cross-reference SPEC positioner mnemonics and names"
            p!"keys are SPEC positioner mnemonics, values are SPEC positioner names"))))) where
  data := by simp
  avoids := one_avoids (by intro f hf; cases f <;> first | exact absurd rfl hf | decide) (by intro _; decide)
  step := by
    rintro f rfl c e hdr x y K v W s s' hP _ hid h hw
    obtain ⟨t, u, hb, h2⟩ := HM.andThen_inv hw
    obtain ⟨_, rfl⟩ := HM.ret_inv h2
    unfold wPositionerXref at hb
    simp only at hb
    split at hb
    · next h1 =>
      obtain ⟨_, rfl⟩ := HM.ret_inv hb
      exact ⟨K, v, W, h, trivial, .inl ⟨h1, rfl⟩⟩
    · obtain ⟨k1, K', v', k2⟩ := h.xref hid rfl (by decide : Plain p!"positioner_cross_reference").single hP hb
      exact ⟨K', v', _, k2, trivial, .inr ⟨k1, rfl⟩⟩
  init := trivial
  pL := fun _ _ h => h
  withL := fun _ _ _ _ h _ => h

/-- #MD -/
theorem slotted_md : Slotted (fun n => n = p!"bluesky_metadata") (fun f => f = .MD) Always Always
    (fun _ x W W' => (x.MD.getD [] = [] ∧ W' = W) ∨
      (W p!"bluesky_metadata" = none ∧ ∃ qs, List.Forall₂ OpPut ((x.MD.getD []).map (fun kv => (kv.1, .str kv.2, []))) qs ∧
        W' = upd W p!"bluesky_metadata" (some (.grp (Sets.puts [] qs)
          (Dict.update [(p!"NX_class", AVal.str p!"NXcollection")] (attr1 p!"description"
            p!"Bluesky metadata (as written by apstools.SpecWriterCallback)")))))) where
  data := by simp
  avoids := one_avoids (by intro f hf; cases f <;> first | exact absurd rfl hf | decide) (by intro _; decide)
  step := by
    rintro f rfl c e hdr x y K v W s s' _ _ hid h hw
    obtain ⟨t, u, hb, h2⟩ := HM.andThen_inv hw
    obtain ⟨_, rfl⟩ := HM.ret_inv h2
    unfold wMD at hb
    cases h1 : x.MD with
    | none =>
      rw [h1] at hb
      obtain ⟨_, rfl⟩ := HM.ret_inv hb
      exact ⟨K, v, W, h, trivial, .inl ⟨rfl, rfl⟩⟩
    | some d =>
      rw [h1] at hb
      cases d with
      | nil =>
        obtain ⟨_, rfl⟩ := HM.ret_inv hb
        exact ⟨K, v, W, h, trivial, .inl ⟨rfl, rfl⟩⟩
      | cons kv d =>
      obtain ⟨t1, g, k1, k2⟩ := HM.bind_inv hb
      obtain ⟨j1, j2, j3⟩ := h.newGroup hid rfl (by decide : Plain p!"bluesky_metadata").single k1
      obtain ⟨K', qs, q1, q2⟩ := Slots.dict (X := fun n => n = p!"bluesky_metadata") (N := p!"bluesky_metadata") rfl _ j3 (upd_self ..) (by rw [upd_self, j2]) k2
      rw [upd_upd] at q2
      refine ⟨K', _, _, q2, trivial, .inr ⟨j1, qs, ?_, rfl⟩⟩
      rw [List.map_map] at q1
      exact q1
  init := trivial
  pL := fun _ _ _ => trivial
  withL := fun _ _ _ _ h _ => h

/-- a name has no dataset -/
def NoDs (N : Str) (W : Known) : Prop := ∀ d b, W N ≠ some (.ds d b)

/-- what the writer of #R or #U does -/
def LinesR (N desc key : Str) (o : Obj → Option (List Str)) (x : Obj) (W W' : Known) : Prop :=
  ∃ l V A, o x = some l ∧ W' = upd W N (some (.grp (Sets.puts V (numbered (if x.kind = .header then p!"header" else p!"item") key l)) A)) ∧
    ((W N = none ∧ V = [] ∧ A = Dict.update [(p!"NX_class", AVal.str p!"NXnote")] (attr1 p!"description" desc)) ∨
      ∃ A0, W N = some (.grp V A0) ∧ A = A0.update (attr1 p!"description" desc))

/-- #R -/
theorem slotted_results : Slotted (fun n => n = p!"UserResults") (fun f => f = .userResults) Always (NoDs p!"UserResults")
    (fun _ => LinesR p!"UserResults" p!"SPEC control line \"#R: Reserved for user results\"" p!"R" (·.R)) where
  data := by simp
  avoids := one_avoids (by intro f hf; cases f <;> first | exact absurd rfl hf | decide) (by intro _; decide)
  step := by
    rintro f rfl c e hdr x y K v W s s' _ hI hid h hw
    obtain ⟨t, u, h1, h2⟩ := HM.andThen_inv hw
    obtain ⟨_, rfl⟩ := HM.ret_inv h2
    obtain ⟨l, V, A, K', v', a1, a2, a3⟩ := h.lines hid rfl (by decide : Plain p!"UserResults").single (by decide) hI h1
    refine ⟨K', v', _, a2, ?_, l, V, A, a1, rfl, a3⟩
    intro d b
    rw [upd_self]; simp
  init := fun _ _ => by simp [Known.nil]
  pL := fun _ _ _ => trivial
  withL := fun _ _ _ _ h _ => h

/-- #U -/
theorem slotted_reserved : Slotted (fun n => n = p!"UserReserved") (fun f => f = .userReserved) Always (NoDs p!"UserReserved")
    (fun _ => LinesR p!"UserReserved" p!"SPEC control line \"#U: Reserved for user\"" p!"U" (·.U)) where
  data := by simp
  avoids := one_avoids (by intro f hf; cases f <;> first | exact absurd rfl hf | decide) (by intro _; decide)
  step := by
    rintro f rfl c e hdr x y K v W s s' _ hI hid h hw
    obtain ⟨t, u, h1, h2⟩ := HM.andThen_inv hw
    obtain ⟨_, rfl⟩ := HM.ret_inv h2
    obtain ⟨l, V, A, K', v', a1, a2, a3⟩ := h.lines hid rfl (by decide : Plain p!"UserReserved").single (by decide) hI h1
    refine ⟨K', v', _, a2, ?_, l, V, A, a1, rfl, a3⟩
    intro d b
    rw [upd_self]; simp
  init := fun _ _ => by simp [Known.nil]
  pL := fun _ _ _ => trivial
  withL := fun _ _ _ _ h _ => h

end
end S2N

namespace S2N
open Py H5 Eznx Writer Spec

/-- the names of the groups of unrecognized lines -/
def unrecName (i : Nat) : Str := p!"unrecognized_" ++ natStr i

theorem unrecName_inj {i j : Nat} (h : unrecName i = unrecName j) : i = j :=
  natStr_injective (List.append_cancel_left h)

theorem unrecName_single (i : Nat) : Single (unrecName i) := by
  refine ⟨by simp [unrecName], ?_, ?_⟩
  · intro e
    simp [unrecName] at e
  · unfold unrecName
    simp only [List.mem_append, not_or]
    exact ⟨by decide, fun hm => absurd (natStr_isDig i _ hm) (by decide)⟩

theorem freeUnrec_spec (taken : Str → Bool) : ∀ n i, ∃ j, i ≤ j ∧ freeUnrec taken n i = unrecName j ∧
    ∀ m, i ≤ m → m < j → taken (unrecName m) = true
  | 0, i => ⟨i, Nat.le_refl _, rfl, fun m h1 h2 => by omega⟩
  | n + 1, i => by
    unfold freeUnrec
    split
    · next h =>
      obtain ⟨j, j1, j2, j3⟩ := freeUnrec_spec taken n (i + 1)
      refine ⟨j, by omega, j2, fun m h1 h2 => ?_⟩
      by_cases e : m = i
      · subst e; exact h
      · exact j3 m (by omega) h2
    · exact ⟨i, Nat.le_refl _, rfl, fun m h1 h2 => by omega⟩

variable [UniDB]

/-- the datasets of unrecognized lines -/
def unrecOps (l : List Str) : List DsOp := ((List.range l.length).zip l).map (fun p => (p!"u" ++ natStr p.1, .str p.2, []))

/-- unrecognized lines -/
theorem slotted_unrec : Slotted (fun n => ∃ i, n = unrecName i) (fun f => f = .unrec) Always Always
    (fun _ x W W' => ∃ i l qs, x.unrecognized = some l ∧ 1 ≤ i ∧ W (unrecName i) = none ∧
      (∀ j, 1 ≤ j → j < i → W (unrecName j) ≠ none) ∧ List.Forall₂ OpPut (unrecOps l) qs ∧
      W' = upd W (unrecName i) (some (.grp (Sets.puts [] qs)
        (Dict.update [(p!"NX_class", AVal.str p!"NXnote")] (attr1 p!"description"
          p!"SPEC data file control lines not otherwise recognized"))))) where
  data := by simp
  avoids := by
    intro f hf
    refine ⟨?_, fun e => absurd e hf⟩
    rintro n hn ⟨i, rfl⟩
    have : startsWith (unrecName i) p!"unrecognized_" = true := by simp [unrecName, startsWith]
    revert hn
    generalize unrecName i = n at this
    intro hn
    cases f <;> simp only [usedBy, List.mem_cons, List.not_mem_nil, or_false] at hn <;>
      first
      | exact absurd rfl hf
      | (subst hn; revert this; decide)
      | (rcases hn with rfl | rfl <;> (revert this; decide))
      | (rcases hn with rfl | rfl | rfl <;> (revert this; decide))
  step := by
    rintro f rfl c e hdr x y K v W s s' _ _ hid h hw
    obtain ⟨t, u, hb, h2⟩ := HM.andThen_inv hw
    obtain ⟨_, rfl⟩ := HM.ret_inv h2
    unfold wUnrec at hb
    obtain ⟨t1, nm, k1, k2⟩ := HM.bind_inv hb
    unfold HM.look at k1
    injection k1 with k0 k1
    subst k0
    injection k1 with k1
    obtain ⟨j, j1, j2, j3⟩ := freeUnrec_spec (fun n => (walk s e.id (comps n)).isSome) (childCount s e.id) 1
    replace k1 := j2.symm.trans k1
    subst k1
    obtain ⟨t2, g, k3, k4⟩ := HM.bind_inv k2
    obtain ⟨g1, g2, g3⟩ := h.newGroup hid ⟨j, rfl⟩ (unrecName_single j) k3
    obtain ⟨t3, l, k5, k6⟩ := HM.bind_inv k4
    obtain ⟨k7, rfl⟩ := need_inv k5
    obtain ⟨K', qs, q1, q2⟩ := Slots.dict (X := fun n => ∃ i, n = unrecName i) (N := unrecName j) ⟨j, rfl⟩ _ g3 (upd_self ..) (by rw [upd_self, g2]) k6
    rw [upd_upd] at q2
    refine ⟨K', _, _, q2, trivial, j, l, qs, k7, j1, g1, ?_, ?_, rfl⟩
    · intro m m1 m2 hW
      have hn := h.none' _ ⟨m, rfl⟩ hW
      obtain ⟨ch, a, e1, e2⟩ := h.held.entry
      rw [← e2 _ ⟨m, rfl⟩] at hn
      have := j3 m m1 m2
      rw [hid, comps_single (unrecName_single m), walk_none e1 hn] at this
      cases this
    · rw [List.map_map] at q1
      exact q1
  init := trivial
  pL := fun _ _ _ => trivial
  withL := fun _ _ _ _ h _ => h

end S2N
