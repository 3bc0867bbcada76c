import Verif.Lemmas.LiveGeo
/-
The writer of the data does not raise.
-/
namespace S2N
open Py H5 Eznx Writer Spec

variable {E : Str} {e : Nat} {I S : Option Nat} {b : Book} {s : H5} {v : Str → Option Nat} {g : HRef}

section
variable [UniDB]

theorem work_column (h : Work E e I S b g.id v s) {x : Obj} {l : Str} (hl : l ≠ [] ∧ ∃ xs, x.data.get? l = some (.col xs)) :
    Runs (column g x l) s fun _ s' => Work E e I S b g.id v s' := by
  obtain ⟨h1, xs, h2⟩ := hl
  unfold column
  simp only [h2]
  exact Runs.lift rfl (h.writeDs h1 (toH_nums _) _)

theorem mcaItems_some {x : Obj} (hx : x.data.get? p!"_mca_" = none ∨ ∃ m, x.data.get? p!"_mca_" = some (.mca m) ∧ ∀ kv ∈ m, SameLengths kv.2) :
    ∃ items, mcaItems x = HM.ret items ∧ (∀ kv ∈ items, SameLengths kv.2) ∧ (mcaOf x = [] → items = []) := by
  unfold mcaItems mcaOf
  rcases hx with hx | ⟨m, hx, hm⟩
  · rw [hx]
    exact ⟨[], rfl, by simp, fun _ => rfl⟩
  · rw [hx]
    refine ⟨sortedItems m, rfl, fun kv hkv => ?_, fun q => ?_⟩
    · exact hm kv (((sortBy_perm _ _).mem_iff).1 hkv)
    · subst q
      rfl

theorem channels_ok {sp : List (List Num)} (h : SameLengths sp) : ∃ n, channels sp = .ok n ∧ sp.all (fun r => r.length == n) = true := by
  obtain ⟨r, rs, rfl, h⟩ := h
  refine ⟨r.length, rfl, ?_⟩
  rw [List.all_cons, Bool.and_eq_true, List.all_eq_true]
  exact ⟨by simp, fun r' hr' => by simp [h r' hr']⟩

theorem work_spectrum (h : Work E e I S b g.id v s) (x : Obj) (axis : Str) {kv : Str × List (List Num)} (hk : SameLengths kv.2) :
    Runs (spectrum g x axis kv) s fun _ s' => Work E e I S b g.id v s' := by
  unfold spectrum
  obtain ⟨n, hn, -⟩ := channels_ok hk
  refine Runs.bind (h.writeDs (by simp) (toH_rows (.inr hk)) _) fun _ s1 w => ?_
  refine Runs.lift hn ?_
  refine Runs.bind (w.writeDs (by simp) (toH_nums _) _) fun _ s2 w => ?_
  exact w.writeDs (by simp) (toH_nums _) _

theorem work_oneD (h : Work E e I S b g.id v s) {x : Obj} (hx : ColumnsOk x) :
    Runs (oneD g x) s fun _ s' => Work E e I S b g.id v s' := by
  unfold oneD
  obtain ⟨l1, h1, h1'⟩ := hx.first
  obtain ⟨l2, h2, h2'⟩ := hx.last
  obtain ⟨n1, c1, -⟩ := clean_ok h1'
  obtain ⟨n2, c2, -⟩ := clean_ok h2'
  refine Runs.bind (Runs.each (J := fun s' => Work E e I S b g.id v s') h fun l hl s1 w => work_column w (hx.columns l hl)) fun _ s1 w => ?_
  refine Runs.need h2 (Runs.lift c2 (Runs.need h1 (Runs.lift c1 ?_)))
  refine Runs.bind (P := fun _ s' => Work E e I S b g.id v s') ?_ fun _ s2 w => Runs.pure w
  unfold mcaSpectra
  obtain ⟨items, hi, hi', -⟩ := mcaItems_some hx.spectra
  rw [hi]
  refine Runs.bind (P := fun a s' => a = items ∧ s' = s1) (Runs.ret ⟨rfl, rfl⟩) ?_
  rintro a s2 ⟨rfl, rfl⟩
  exact Runs.each (J := fun s' => Work E e I S b g.id v s') w fun kv hkv s1 w => work_spectrum w x _ (hi' kv hkv)

theorem work_dataAttributes (h : Work E e I S b g.id v s) (signal axes : Str) :
    Runs (dataAttributes g signal axes) s fun _ s' => Work E e I S b g.id v s' := by
  unfold dataAttributes
  split
  · refine Runs.bind (h.attrs _) fun _ s1 w => ?_
    exact Runs.each (J := fun s' => Work E e I S b g.id v s') w fun n _ s1 w => w.attrs _
  · refine Runs.bind (h.attrs _) fun _ s1 w => ?_
    exact w.attrs _

theorem hklAxes_ok {cmd : Str} (h : 7 ≤ (splitWs cmd).length) : ∃ a, hklAxes cmd = .ok a := by
  unfold hklAxes
  have hl : (((splitWs cmd).drop 1).take 6).length = 6 := by
    rw [List.length_take, List.length_drop]; omega
  split
  · exact ⟨_, rfl⟩
  · next hne =>
    exfalso
    rcases hq : ((splitWs cmd).drop 1).take 6 with _ | ⟨a1, _ | ⟨a2, _ | ⟨a3, _ | ⟨a4, _ | ⟨a5, _ | ⟨a6, _ | ⟨a7, l⟩⟩⟩⟩⟩⟩⟩ <;> rw [hq] at hl <;> simp at hl
    exact hne _ _ _ _ _ _ hq

/-! ## Meshes -/

theorem meshLabel_ok {x : Obj} {w l : Str} {i : Nat} (h : meshAxis x w i = some l) : meshLabel x w i = .ok l := by
  unfold meshAxis at h
  unfold meshLabel
  split
  · next q =>
    rw [if_pos q] at h
    injection h with h
    rw [h]
  · next q =>
    rw [if_neg q] at h
    rw [h]

theorem work_meshSpectra (axes : Str) : ∀ (items : List (Str × List (List Num))) (shape : List Nat) {s : H5}, Work E e I S b g.id v s →
    (∀ kv ∈ items, SameLengths kv.2) → Runs (meshSpectra g axes (some shape) items) s fun _ s' => Work E e I S b g.id v s'
  | [], _, _, h, _ => Runs.ret h
  | kv :: rest, shape, s, h, hk => by
    unfold meshSpectra
    obtain ⟨n, hn, hall⟩ := channels_ok (hk kv (by simp))
    refine Runs.lift hn ?_
    simp only [hall, if_true]
    refine Runs.bind (h.writeDs (by simp) (toH_nd _) _) fun _ s1 w => ?_
    refine Runs.bind (w.writeDs (by simp) (toH_range _) _) fun _ s2 w => ?_
    exact work_meshSpectra axes rest _ w fun kv' hk' => hk kv' (by simp [hk'])

theorem work_meshColumn (h : Work E e I S b g.id v s) {x : Obj} (shape : List Nat) {l : Str} (hl : l ≠ [] ∧ ∃ xs, x.data.get? l = some (.col xs)) :
    Runs (meshColumn g x shape l) s fun _ s' => Work E e I S b g.id v s' := by
  obtain ⟨h1, xs, h2⟩ := hl
  unfold meshColumn
  refine Runs.bind (P := fun _ s' => s' = s) ⟨_, s, rfl, rfl⟩ ?_
  rintro c s1 rfl
  cases c with
  | true => exact Runs.pure h
  | false =>
    have : axisOf x l = .ok xs := by unfold axisOf; rw [h2]
    exact Runs.lift this (h.writeDs h1 (toH_nd _) _)

theorem work_constantAxis (h : Work E e I S b g.id v s) {x : Obj} {l1 l2 : Str}
    (hx : startsWith x.scanCmd p!"hkl" = true → ∀ k ∈ [p!"H", p!"K", p!"L"], k ≠ l1 → k ≠ l2 → ∃ v vs, x.data.get? k = some (.col (v :: vs))) :
    Runs (constantAxis g x l1 l2) s fun _ s' => Work E e I S b g.id v s' := by
  unfold constantAxis
  split
  · next hh =>
    split
    · next hf =>
      exfalso
      rw [List.filter_eq_nil_iff] at hf
      have q1 := hf p!"H" (by simp)
      have q2 := hf p!"K" (by simp)
      have q3 := hf p!"L" (by simp)
      simp only [Bool.not_eq_true, Bool.not_eq_false', Bool.or_eq_true, beq_iff_eq] at q1 q2 q3
      have n1 : p!"H" ≠ p!"K" := by decide
      have n2 : p!"H" ≠ p!"L" := by decide
      have n3 : p!"K" ≠ p!"L" := by decide
      rcases q1 with rfl | rfl <;> rcases q2 with q2 | q2 <;> rcases q3 with q3 | q3 <;> simp_all
    · next l3 rest hf =>
      have hm : l3 ∈ [p!"H", p!"K", p!"L"].filter (fun k => !(k == l1 || k == l2)) := by rw [hf]; simp
      rw [List.mem_filter] at hm
      simp only [Bool.not_eq_true', Bool.or_eq_false_iff, beq_eq_false_iff_ne] at hm
      obtain ⟨y, ys, hy⟩ := hx hh l3 hm.1 hm.2.1 hm.2.2
      simp only [hy]
      refine h.writeDs ?_ (toH_num _) _
      rintro rfl
      exact absurd hm.1 (by decide)
  · exact Runs.ret h

theorem pyRemove_ok {l : Str} {ls : List Str} (h : l ∈ ls) : pyRemove l ls = .ok (ls.erase l) := by
  unfold pyRemove
  rw [if_pos h]

theorem work_mesh (h : Work E e I S b g.id v s) {x : Obj} (hc : ColumnsOk x) (hx : MeshOk x) :
    Runs (mesh g x) s fun a s' => (∃ L, a.2.2 = { x with L := L }) ∧ Work E e I S b g.id v s' := by
  obtain ⟨m, w1, s1, e1, n1, w2, s2, e2, n2, t, i1, i2, l1, l2, ys, hw, hn1, hn2, ha1, ha2, hp⟩ := hx
  obtain ⟨zs, hz⟩ := hp.second
  have hmw : meshWords x.scanCmd = .ok (w1, n1, w2, n2) := by unfold meshWords; rw [hw]
  have hax1 : axisOf x l1 = .ok ys := by unfold axisOf; rw [hp.first]
  have hax2 : axisOf x l2 = .ok zs := by unfold axisOf; rw [hz]
  obtain ⟨items, hi, hi', hi0⟩ := mcaItems_some hc.spectra
  unfold mesh
  refine Runs.lift hmw (Runs.lift (meshLabel_ok ha1) (Runs.lift (meshLabel_ok ha2) (Runs.lift hn1 (Runs.lift hn2 (Runs.lift hax1 ?_)))))
  split
  · next hlt =>
    refine Runs.bind (work_oneD h hc) ?_
    rintro ⟨sg, ax⟩ t1 w
    rw [hi, hi0 (hp.short hlt)]
    refine Runs.bind (P := fun a s' => a = [] ∧ s' = t1) (Runs.ret ⟨rfl, rfl⟩) ?_
    rintro a t2 ⟨rfl, rfl⟩
    refine Runs.bind (P := fun _ s' => s' = t2) (Runs.ret rfl) ?_
    rintro _ t3 rfl
    exact Runs.pure ⟨⟨x.L, rfl⟩, w⟩
  · next hge =>
    obtain ⟨hne, hl1, hl2, hll⟩ := hp.columns (by omega)
    have hev : ∃ r, everyNth (i1 + 1) zs = .ok r := by
      unfold everyNth
      rw [if_neg (by rintro ⟨q, -⟩; omega)]
      exact ⟨_, rfl⟩
    obtain ⟨ax2, hev⟩ := hev
    have hl2' : l2 ∈ (x.L.getD []).erase l1 := (List.mem_erase_of_ne (Ne.symm hll)).2 hl2
    refine Runs.lift hax2 (Runs.lift hev (Runs.lift (pyRemove_ok hl1) (Runs.lift (pyRemove_ok hl2') ?_)))
    refine Runs.bind (work_constantAxis h (hp.third (by omega))) fun _ t1 w => ?_
    refine Runs.bind (w.writeDs (hc.columns l1 hl1).1 (toH_nums _) _) fun _ t2 w => ?_
    refine Runs.bind (w.writeDs (hc.columns l2 hl2).1 (toH_nums _) _) fun _ t3 w => ?_
    refine Runs.bind (Runs.each (J := fun s' => Work E e I S b g.id v s') w fun l hl t w => work_meshColumn w _
      (hc.columns l (List.mem_of_mem_erase (List.mem_of_mem_erase hl)))) fun _ t4 w => ?_
    obtain ⟨lc, hlc, hlc'⟩ := hc.last
    obtain ⟨nc, hnc, -⟩ := clean_ok hlc'
    refine Runs.need hlc (Runs.lift hnc ?_)
    rw [hi]
    refine Runs.bind (P := fun a s' => a = items ∧ s' = t4) (Runs.ret ⟨rfl, rfl⟩) ?_
    rintro a t5 ⟨rfl, rfl⟩
    refine Runs.bind (work_meshSpectra _ a _ w hi') fun _ t6 w => ?_
    exact Runs.pure ⟨⟨_, rfl⟩, w⟩

theorem live_scanData (h : Live E e I S b s) (hf : p!"data" ∉ b.top) {x : Obj} (hx : DataOk x) :
    Runs (wScanData ⟨e, [E]⟩ x) s fun y s' => ((∃ L, y = { x with L := L }) ∧ (NotBy x meshMacros → y = x)) ∧ Done .scanData E e b s' := by
  unfold wScanData
  refine Runs.bind (h.make (ordinary_lit (by decide) (by decide)) hf _ _) ?_
  rintro g s1 ⟨-, -, v, -, w⟩
  have hdone : ∀ {s'}, Work E e I S (b.add p!"data") g.id v s' → Done .scanData E e b s' :=
    fun w => ⟨_, _, _, w.live, (Grow.refl _ _).add (.inl (by decide))⟩
  unfold saveData
  have hcmd := hx.command
  split
  · next hq => exact absurd hq hcmd
  · next m ms hq =>
    have hm : macroOf x = some m := by unfold macroOf; rw [hq]; rfl
    split
    · next hmm =>
      refine Runs.bind (work_mesh w hx.columns (hx.mesh ⟨m, hmm, hm⟩)) ?_
      rintro ⟨sg, ax, y⟩ s2 ⟨hy, w⟩
      refine Runs.bind (work_dataAttributes w sg ax) fun _ s3 w => ?_
      exact Runs.pure ⟨⟨hy, fun q => absurd hm (q m hmm)⟩, hdone w⟩
    · split
      · next hmm =>
        refine Runs.bind (work_oneD w hx.columns) ?_
        rintro ⟨sg, ax⟩ s2 w
        obtain ⟨a, ha⟩ := hklAxes_ok (hx.hkl ⟨m, hmm, hm⟩)
        refine Runs.lift ha ?_
        refine Runs.bind (work_dataAttributes w sg a) fun _ s3 w => ?_
        exact Runs.pure ⟨⟨⟨x.L, rfl⟩, fun _ => rfl⟩, hdone w⟩
      · refine Runs.bind (work_oneD w hx.columns) ?_
        rintro ⟨sg, ax⟩ s2 w
        refine Runs.bind (work_dataAttributes w sg ax) fun _ s3 w => ?_
        exact Runs.pure ⟨⟨⟨x.L, rfl⟩, fun _ => rfl⟩, hdone w⟩

end
end S2N
