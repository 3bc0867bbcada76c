import Verif.Spec.Example
import Verif.Props.Eznx
/-
C115: the example file.
-/
namespace S2N.Props
open S2N S2N.Spec Py H5 Eznx

/-- the file of the example, as a heap -/
def exampleFile (a b : List PyFloat) : H5 :=
  [ .group [(p!"entry", 1)] [(p!"default", .str p!"entry")],
    .group [(p!"instrument", 2), (p!"data", 6)]
      [(p!"NX_class", .str p!"NXentry"), (p!"default", .str p!"data")],
    .group [(p!"detector", 3)] [(p!"NX_class", .str p!"NXinstrument")],
    .group [(p!"two_theta", 4), (p!"counts", 5)] [(p!"NX_class", .str p!"NXdetector")],
    .dset (column a) [(p!"units", .str p!"degrees"),
      (p!"target", .str p!"/entry/instrument/detector/two_theta")],
    .dset (column b) [(p!"units", .str p!"counts"),
      (p!"target", .str p!"/entry/instrument/detector/counts")],
    .group [(p!"two_theta", 4), (p!"counts", 5)]
      [(p!"NX_class", .str p!"NXdata"), (p!"signal", .num (.int 1)), (p!"axes", .str p!"two_theta"),
        (p!"two_theta_indices", .num (.int 0))] ]

theorem unify_flt (l : List PyFloat) : unify (l.map .flt) = l.map .flt := by
  unfold unify
  split
  · simp [Num.toFlt]
  · rfl

theorem toH_flt (l : List PyFloat) : (PData.nums (l.map .flt)).toH = .ok (column l) := by
  simp [PData.toH, unify_flt, column]

/-- the file before the links are made: `n` objects of it -/
def exampleStep (x y : HData) (n : Nat) : H5 :=
  match n with
  | 0 => [.group [] [(p!"default", .str p!"entry")]]
  | 1 => [.group [(p!"entry", 1)] [(p!"default", .str p!"entry")],
      .group [] [(p!"NX_class", .str p!"NXentry"), (p!"default", .str p!"data")]]
  | 2 => [.group [(p!"entry", 1)] [(p!"default", .str p!"entry")],
      .group [(p!"instrument", 2)] [(p!"NX_class", .str p!"NXentry"), (p!"default", .str p!"data")],
      .group [] [(p!"NX_class", .str p!"NXinstrument")]]
  | 3 => [.group [(p!"entry", 1)] [(p!"default", .str p!"entry")],
      .group [(p!"instrument", 2)] [(p!"NX_class", .str p!"NXentry"), (p!"default", .str p!"data")],
      .group [(p!"detector", 3)] [(p!"NX_class", .str p!"NXinstrument")],
      .group [] [(p!"NX_class", .str p!"NXdetector")]]
  | 4 => [.group [(p!"entry", 1)] [(p!"default", .str p!"entry")],
      .group [(p!"instrument", 2)] [(p!"NX_class", .str p!"NXentry"), (p!"default", .str p!"data")],
      .group [(p!"detector", 3)] [(p!"NX_class", .str p!"NXinstrument")],
      .group [(p!"two_theta", 4)] [(p!"NX_class", .str p!"NXdetector")],
      .dset x [(p!"units", .str p!"degrees")]]
  | 5 => [.group [(p!"entry", 1)] [(p!"default", .str p!"entry")],
      .group [(p!"instrument", 2)] [(p!"NX_class", .str p!"NXentry"), (p!"default", .str p!"data")],
      .group [(p!"detector", 3)] [(p!"NX_class", .str p!"NXinstrument")],
      .group [(p!"two_theta", 4), (p!"counts", 5)] [(p!"NX_class", .str p!"NXdetector")],
      .dset x [(p!"units", .str p!"degrees")],
      .dset y [(p!"units", .str p!"counts")]]
  | 6 => [.group [(p!"entry", 1)] [(p!"default", .str p!"entry")],
      .group [(p!"instrument", 2), (p!"data", 6)]
        [(p!"NX_class", .str p!"NXentry"), (p!"default", .str p!"data")],
      .group [(p!"detector", 3)] [(p!"NX_class", .str p!"NXinstrument")],
      .group [(p!"two_theta", 4), (p!"counts", 5)] [(p!"NX_class", .str p!"NXdetector")],
      .dset x [(p!"units", .str p!"degrees")],
      .dset y [(p!"units", .str p!"counts")],
      .group [] [(p!"NX_class", .str p!"NXdata"), (p!"signal", .num (.int 1)),
        (p!"axes", .str p!"two_theta"), (p!"two_theta_indices", .num (.int 0))]]
  | _ => [.group [(p!"entry", 1)] [(p!"default", .str p!"entry")],
      .group [(p!"instrument", 2), (p!"data", 6)]
        [(p!"NX_class", .str p!"NXentry"), (p!"default", .str p!"data")],
      .group [(p!"detector", 3)] [(p!"NX_class", .str p!"NXinstrument")],
      .group [(p!"two_theta", 4), (p!"counts", 5)] [(p!"NX_class", .str p!"NXdetector")],
      .dset x [(p!"units", .str p!"degrees"),
        (p!"target", .str p!"/entry/instrument/detector/two_theta")],
      .dset y [(p!"units", .str p!"counts")],
      .group [(p!"two_theta", 4)] [(p!"NX_class", .str p!"NXdata"), (p!"signal", .num (.int 1)),
        (p!"axes", .str p!"two_theta"), (p!"two_theta_indices", .num (.int 0))]]

theorem makeDataset_flt (h : HRef) (n : Str) (l : List PyFloat) (attr : Dict AVal) (s : H5) :
    makeDataset h n (.nums (l.map .flt)) attr s =
      (HM.andThen (create h n (.dset (column l) [])) fun ds =>
        HM.andThen (addAttributes ds attr) fun _ => HM.ret ds) s := by
  unfold makeDataset
  rw [toH_flt]
  rfl

theorem fill_eq (a b : List PyFloat) :
    Example.fill root a b H5.empty = (exampleFile a b, .ok ()) := by
  unfold Example.fill
  rw [HM.bind_ok (show setAttr root _ _ H5.empty = (exampleStep (column a) (column b) 0, .ok ()) from rfl),
    HM.bind_ok (show makeGroup root _ _ _ (exampleStep (column a) (column b) 0) =
      (exampleStep (column a) (column b) 1, .ok ⟨1, [p!"entry"]⟩) from rfl),
    HM.bind_ok (show makeGroup _ _ _ _ (exampleStep (column a) (column b) 1) =
      (exampleStep (column a) (column b) 2, .ok ⟨2, [p!"entry", p!"instrument"]⟩) from rfl),
    HM.bind_ok (show makeGroup _ _ _ _ (exampleStep (column a) (column b) 2) =
      (exampleStep (column a) (column b) 3, .ok ⟨3, [p!"entry", p!"instrument", p!"detector"]⟩) from rfl),
    HM.bind_ok (show makeDataset _ _ _ _ (exampleStep (column a) (column b) 3) =
      (exampleStep (column a) (column b) 4,
        .ok ⟨4, [p!"entry", p!"instrument", p!"detector", p!"two_theta"]⟩) from
      (makeDataset_flt _ _ _ _ _).trans rfl),
    HM.bind_ok (show makeDataset _ _ _ _ (exampleStep (column a) (column b) 4) =
      (exampleStep (column a) (column b) 5,
        .ok ⟨5, [p!"entry", p!"instrument", p!"detector", p!"counts"]⟩) from
      (makeDataset_flt _ _ _ _ _).trans rfl),
    HM.bind_ok (show makeGroup _ _ _ _ (exampleStep (column a) (column b) 5) =
      (exampleStep (column a) (column b) 6, .ok ⟨6, [p!"entry", p!"data"]⟩) from rfl)]
  rw [HM.bind_ok (show makeLink _ _ _ (exampleStep (column a) (column b) 6) =
      (exampleStep (column a) (column b) 7, .ok ()) from rfl)]
  rfl

theorem run_eq {text : Str} {a b : List PyFloat} (h : Example.twoColumns text = .ok (a, b)) :
    Example.run text = (some (exampleFile a b), .ok ()) := by
  have hf : makeFile [] = (H5.empty, .ok root) := rfl
  simp only [Example.run, h, hf, fill_eq]

theorem zipStep_ok {rows : List (List Str)} {c : List PyFloat} {rest : List (List Str)} :
    Example.zipStep rows = .ok (some (c, rest)) ↔
      rows.map (fun r => r.head?.map parseFloat) = c.map (fun x => some (some x)) ∧
        rest = rows.map List.tail := by
  induction rows generalizing c rest with
  | nil =>
    cases c with
    | nil => simpa [Example.zipStep] using eq_comm
    | cons y ys => simp [Example.zipStep]
  | cons r rows ih =>
    cases r with
    | nil => cases c <;> simp [Example.zipStep]
    | cons w ws =>
      rw [Example.zipStep]
      cases hp : parseFloat w with
      | none => cases c <;> simp [hp]
      | some x =>
        cases hz : Example.zipStep rows with
        | error e =>
          cases c with
          | nil => simp
          | cons y ys =>
            simp only [reduceCtorEq, List.map_cons, List.head?_cons, Option.map_some, hp,
              List.cons.injEq, Option.some.injEq, List.tail_cons, false_iff, not_and]
            intro h
            have := (ih (c := ys) (rest := rows.map List.tail)).2 ⟨h.2, rfl⟩
            rw [hz] at this
            cases this
        | ok o =>
          cases o with
          | none =>
            cases c with
            | nil => simp
            | cons y ys =>
              simp only [reduceCtorEq, List.map_cons, List.head?_cons, Option.map_some, hp,
                List.cons.injEq, Option.some.injEq, List.tail_cons, false_iff, not_and, Except.ok.injEq]
              intro h
              have := (ih (c := ys) (rest := rows.map List.tail)).2 ⟨h.2, rfl⟩
              rw [hz] at this
              cases this
          | some q =>
            obtain ⟨xs, rest'⟩ := q
            have h := ih.1 hz
            cases c with
            | nil => simp
            | cons y ys =>
              simp only [Except.ok.injEq, Option.some.injEq, Prod.mk.injEq, List.cons.injEq,
                List.map_cons, List.head?_cons, Option.map_some, hp, List.tail_cons]
              constructor
              · rintro ⟨⟨rfl, rfl⟩, rfl⟩
                exact ⟨⟨rfl, h.1⟩, by rw [h.2]⟩
              · rintro ⟨⟨h1, h2⟩, h3⟩
                have := (ih (c := ys) (rest := rows.map List.tail)).2 ⟨h2, rfl⟩
                rw [hz] at this
                simp only [Except.ok.injEq, Option.some.injEq, Prod.mk.injEq] at this
                exact ⟨⟨h1, this.1⟩, by rw [h3, h.2]⟩

theorem zipStep_err {rows : List (List Str)} {e : PyErr} (h : Example.zipStep rows = .error e) :
    e = .ValueError := by
  induction rows with
  | nil => cases h
  | cons r rows ih =>
    cases r with
    | nil => cases h
    | cons w ws =>
      rw [Example.zipStep] at h
      cases hp : parseFloat w with
      | none => rw [hp] at h; cases h; rfl
      | some x =>
        rw [hp] at h
        cases hz : Example.zipStep rows with
        | error e' => rw [hz] at h; cases h; exact ih hz
        | ok o => rw [hz] at h; cases o <;> cases h

theorem zipCols_err {n : Nat} {rows : List (List Str)} {e : PyErr}
    (h : Example.zipCols n rows = .error e) : e = .ValueError := by
  induction n generalizing rows with
  | zero => cases h
  | succ n ih =>
    rw [Example.zipCols] at h
    cases hz : Example.zipStep rows with
    | error e' => rw [hz] at h; cases h; exact zipStep_err hz
    | ok o =>
      rw [hz] at h
      cases o with
      | none => cases h
      | some q =>
        obtain ⟨c, rest⟩ := q
        simp only at h
        cases hc : Example.zipCols n rest with
        | error e' => rw [hc] at h; cases h; exact ih hc
        | ok cs => rw [hc] at h; cases h

theorem zipCols_cons {n : Nat} {rows : List (List Str)} {c : List PyFloat}
    {cs : List (List PyFloat)} (h : Example.zipCols n rows = .ok (c :: cs)) :
    ∃ m, n = m + 1 ∧ rows.map (fun r => r.head?.map parseFloat) = c.map (fun x => some (some x)) ∧
      Example.zipCols m (rows.map List.tail) = .ok cs := by
  cases n with
  | zero => cases h
  | succ n =>
    rw [Example.zipCols] at h
    cases hz : Example.zipStep rows with
    | error e' => rw [hz] at h; cases h
    | ok o =>
      rw [hz] at h
      cases o with
      | none => cases h
      | some q =>
        obtain ⟨c', rest⟩ := q
        have k := zipStep_ok.1 hz
        simp only at h
        cases hc : Example.zipCols n rest with
        | error e' => rw [hc] at h; cases h
        | ok cs' =>
          rw [hc] at h
          simp only [Except.ok.injEq, List.cons.injEq] at h
          obtain ⟨rfl, rfl⟩ := h
          exact ⟨n, rfl, k.1, by rw [← k.2]; exact hc⟩

theorem begins_of {rows : List (List Str)} {a b : List PyFloat}
    (h1 : rows.map (fun r => r.head?.map parseFloat) = a.map (fun x => some (some x)))
    (h2 : (rows.map List.tail).map (fun r => r.head?.map parseFloat) =
      b.map (fun x => some (some x))) :
    ∃ rs : List (PyFloat × PyFloat), a = rs.map (·.1) ∧ b = rs.map (·.2) ∧
      rows.map (fun ws => (ws.take 2).map parseFloat) = rs.map (fun r => [some r.1, some r.2]) := by
  induction rows generalizing a b with
  | nil =>
    cases a <;> cases b <;> simp at h1 h2
    exact ⟨[], rfl, rfl, rfl⟩
  | cons r rows ih =>
    cases a with
    | nil => simp at h1
    | cons x a =>
      cases b with
      | nil => simp at h2
      | cons y b =>
        simp only [List.map_cons, List.cons.injEq] at h1 h2
        obtain ⟨rs, rfl, rfl, h⟩ := ih h1.2 h2.2
        refine ⟨(x, y) :: rs, rfl, rfl, ?_⟩
        simp only [List.map_cons, h, List.cons.injEq, and_true]
        rcases r with _ | ⟨w, _ | ⟨w', ws⟩⟩
        · simp at h1
        · simp at h2
        · have e1 : parseFloat w = some x := by simpa using h1.1
          have e2 : parseFloat w' = some y := by simpa using h2.1
          simp [e1, e2]

theorem twoColumns_ok {text : Str} {a b : List PyFloat} (h : Example.twoColumns text = .ok (a, b)) :
    ∃ rs : List (PyFloat × PyFloat), rs ≠ [] ∧ TableBegins text rs ∧ a = rs.map (·.1) ∧
      b = rs.map (·.2) := by
  unfold Example.twoColumns at h
  rw [show (splitlines (strip text)).map splitWs = tableLines text from rfl] at h
  simp only at h
  unfold TableBegins
  generalize tableLines text = rows at h ⊢
  split at h
  · cases h
  · rename_i a' b' hz
    cases h
    obtain ⟨m, hm, h1, hz⟩ := zipCols_cons hz
    obtain ⟨_, _, h2, _⟩ := zipCols_cons hz
    obtain ⟨rs, ha, hb, hr⟩ := begins_of h1 h2
    refine ⟨rs, ?_, hr, ha, hb⟩
    rintro rfl
    cases rows with
    | nil => simp at hm
    | cons r rows => simp at hr
  · cases h

theorem twoColumns_err {text : Str} {e : PyErr} (h : Example.twoColumns text = .error e) :
    e = .ValueError := by
  unfold Example.twoColumns at h
  simp only at h
  split at h
  · rename_i e' hz
    cases h
    exact zipCols_err hz
  · cases h
  · cases h; rfl

theorem twoColumns_table {text : Str} {rs : List (PyFloat × PyFloat)} (ht : Table text rs)
    (hne : rs ≠ []) : Example.twoColumns text = .ok (rs.map (·.1), rs.map (·.2)) := by
  unfold Example.twoColumns
  rw [show (splitlines (strip text)).map splitWs = tableLines text from rfl]
  unfold Table at ht
  generalize tableLines text = rows at ht ⊢
  have hl : ((rows.head?.getD []).length) = 2 := by
    cases rs with
    | nil => exact absurd rfl hne
    | cons p rs =>
      cases rows with
      | nil => simp at ht
      | cons r rows =>
        simp only [List.map_cons, List.cons.injEq] at ht
        have := congrArg List.length ht.1
        simpa using this
  have h1 : rows.map (fun r => r.head?.map parseFloat) =
        (rs.map (·.1)).map (fun x => some (some x)) ∧
      (rows.map List.tail).map (fun r => r.head?.map parseFloat) =
        (rs.map (·.2)).map (fun x => some (some x)) := by
    clear hl hne
    induction rows generalizing rs with
    | nil => cases rs with
      | nil => simp
      | cons p rs => simp at ht
    | cons r rows ih =>
      cases rs with
      | nil => simp at ht
      | cons p rs =>
        simp only [List.map_cons, List.cons.injEq] at ht
        have := ih ht.2
        rcases r with _ | ⟨w, _ | ⟨w', ws⟩⟩
        · simp at ht
        · simp at ht
        · simp only [List.map_cons, List.cons.injEq] at ht
          simp only [List.map_cons, List.head?_cons, List.tail_cons, Option.map_some, ht.1.1, ht.1.2.1,
            this.1, this.2, and_self]
  have e1 := zipStep_ok.2 ⟨h1.1, rfl⟩
  have e2 := zipStep_ok.2 ⟨h1.2, rfl⟩
  simp only [hl, Example.zipCols, e1, e2]

/-! ## C115 -/

/-- C115: for every table in place of the data of the example, the file is made, and it is as the
script says: the columns of the table are datasets of the detector with their units; the group data
has the same two objects, whose attribute `target` is their path at the detector; groups, classes, default and plot
attributes are as given; there is nothing else. -/
theorem C115_file (text : Str) (rs : List (PyFloat × PyFloat)) (ht : Table text rs) (hne : rs ≠ []) :
    ∃ s, Example.run text = (some s, .ok ()) ∧
      datasetAt s [p!"entry", p!"instrument", p!"detector", p!"two_theta"] =
        some (column (rs.map (·.1)), [(p!"units", .str p!"degrees"),
          (p!"target", .str p!"/entry/instrument/detector/two_theta")]) ∧
      datasetAt s [p!"entry", p!"instrument", p!"detector", p!"counts"] =
        some (column (rs.map (·.2)), [(p!"units", .str p!"counts"),
          (p!"target", .str p!"/entry/instrument/detector/counts")]) ∧
      (∀ n ∈ [p!"two_theta", p!"counts"], ∃ i,
        H5.walk s 0 [p!"entry", p!"instrument", p!"detector", n] = some i ∧
        H5.walk s 0 [p!"entry", p!"data", n] = some i) ∧
      groupAt s [] = some [(p!"default", .str p!"entry")] ∧
      groupAt s [p!"entry"] =
        some [(p!"NX_class", .str p!"NXentry"), (p!"default", .str p!"data")] ∧
      groupAt s [p!"entry", p!"instrument"] = some [(p!"NX_class", .str p!"NXinstrument")] ∧
      groupAt s [p!"entry", p!"instrument", p!"detector"] =
        some [(p!"NX_class", .str p!"NXdetector")] ∧
      groupAt s [p!"entry", p!"data"] =
        some [(p!"NX_class", .str p!"NXdata"), (p!"signal", .num (.int 1)),
          (p!"axes", .str p!"two_theta"), (p!"two_theta_indices", .num (.int 0))] ∧
      childrenAt s [] = [p!"entry"] ∧
      childrenAt s [p!"entry"] = [p!"instrument", p!"data"] ∧
      childrenAt s [p!"entry", p!"instrument"] = [p!"detector"] ∧
      childrenAt s [p!"entry", p!"instrument", p!"detector"] = [p!"two_theta", p!"counts"] ∧
      childrenAt s [p!"entry", p!"data"] = [p!"two_theta", p!"counts"] := by
  refine ⟨_, run_eq (twoColumns_table ht hne), rfl, rfl, ?_, rfl, rfl, rfl, rfl, rfl, rfl, rfl, rfl,
    rfl, rfl⟩
  intro n hn
  simp only [List.mem_cons, List.not_mem_nil, or_false] at hn
  rcases hn with rfl | rfl
  · exact ⟨4, rfl, rfl⟩
  · exact ⟨5, rfl, rfl⟩

theorem fieldOf_column (l : List PyFloat) (h : l ≠ []) : fieldOf (column l) = .ok (readColumn l) := by
  rcases l with _ | ⟨x, _ | ⟨y, l⟩⟩
  · exact absurd rfl h
  · rfl
  · rfl

theorem read_example (a b : List PyFloat) (ha : a ≠ []) (hb : b ≠ []) :
    readNexusField root p!"/entry/instrument/detector/two_theta" (exampleFile a b) =
      (exampleFile a b, .ok (readColumn a)) ∧
    readNexusField root p!"/entry/data/two_theta" (exampleFile a b) =
      (exampleFile a b, .ok (readColumn a)) ∧
    readNexusField root p!"/entry/instrument/detector/counts" (exampleFile a b) =
      (exampleFile a b, .ok (readColumn b)) ∧
    readNexusField root p!"/entry/data/counts" (exampleFile a b) =
      (exampleFile a b, .ok (readColumn b)) := by
  rw [← fieldOf_column a ha, ← fieldOf_column b hb]
  exact ⟨rfl, rfl, rfl, rfl⟩

/-- C115: whatever the text is, the script either raises ValueError and makes no file, or it makes
the file, and reading it gives, at both places, the first two numbers of each of the lines. -/
theorem C115_every_text (text : Str) :
    Example.run text = (none, .error .ValueError) ∨
    ∃ s rs, Example.run text = (some s, .ok ()) ∧ rs ≠ [] ∧ TableBegins text rs ∧
      ∀ place ∈ [p!"/entry/instrument/detector", p!"/entry/data"],
        readNexusField root (place ++ p!"/two_theta") s = (s, .ok (readColumn (rs.map (·.1)))) ∧
        readNexusField root (place ++ p!"/counts") s = (s, .ok (readColumn (rs.map (·.2)))) := by
  cases h : Example.twoColumns text with
  | error e =>
    refine .inl ?_
    unfold Example.run
    rw [h, twoColumns_err h]
  | ok p =>
    obtain ⟨a, b⟩ := p
    obtain ⟨rs, hne, hb, rfl, rfl⟩ := twoColumns_ok h
    refine .inr ⟨_, rs, run_eq h, hne, hb, ?_⟩
    have := read_example (rs.map (·.1)) (rs.map (·.2)) (by simpa using hne) (by simpa using hne)
    intro place hp
    simp only [List.mem_cons, List.not_mem_nil, or_false] at hp
    rcases hp with rfl | rfl
    · exact ⟨this.1, this.2.2.1⟩
    · exact ⟨this.2.1, this.2.2.2⟩

/-- C115: no file without a line, or with a line of fewer than two words. -/
theorem C115_short (text : Str) (h : tableLines text = [] ∨ ∃ ws ∈ tableLines text, ws.length < 2) :
    Example.run text = (none, .error .ValueError) := by
  rcases C115_every_text text with h' | ⟨s, rs, _, hne, hb, _⟩
  · exact h'
  · exfalso
    unfold TableBegins at hb
    rcases h with h | ⟨ws, hw, hl⟩
    · rw [h] at hb
      exact hne (by simpa using hb.symm)
    · have : (ws.take 2).map parseFloat ∈ rs.map (fun r => [some r.1, some r.2]) := by
        rw [← hb]; exact List.mem_map_of_mem hw
      obtain ⟨r, _, hr⟩ := List.mem_map.1 this
      have := congrArg List.length hr
      simp at this
      omega

/-- C115: what is done later to the file through one of the two places is seen through the other. -/
theorem C115_shared (text : Str) (rs : List (PyFloat × PyFloat)) (ht : Table text rs) (hne : rs ≠ [])
    (ops : List EzOp) (n : Str) (hn : n ∈ [p!"two_theta", p!"counts"]) :
    ∃ s, Example.run text = (some s, .ok ()) ∧
      objAt (history ops s) [p!"entry", p!"instrument", p!"detector", n] =
        objAt (history ops s) [p!"entry", p!"data", n] ∧
      (objAt (history ops s) [p!"entry", p!"data", n]).isSome := by
  obtain ⟨s, hs, _, _, hw, _⟩ := C115_file text rs ht hne
  obtain ⟨i, h1, h2⟩ := hw n hn
  have k := C39_shared_forever s _ _ i h1 h2 ops
  refine ⟨s, hs, k.2.2, ?_⟩
  have hi : i < s.length := by
    have e := hs.symm.trans (run_eq (twoColumns_table ht hne))
    simp only [Prod.mk.injEq, Option.some.injEq, and_true] at e
    subst e
    simp only [List.mem_cons, List.not_mem_nil, or_false] at hn
    rcases hn with rfl | rfl
    · cases h2; exact Nat.lt_of_sub_ne_zero (by simp [exampleFile])
    · cases h2; exact Nat.lt_of_sub_ne_zero (by simp [exampleFile])
  unfold objAt
  rw [k.2.1]
  have := (grows_history ops s).le
  simp only [Option.isSome_iff_exists]
  exact ⟨_, List.getElem?_eq_getElem (by omega)⟩

theorem zipStep_none {rows : List (List Str)} :
    Example.zipStep rows = .ok none ↔ ∃ before after, rows = before ++ [] :: after ∧
      ∀ l ∈ before, ∃ w x, l.head? = some w ∧ parseFloat w = some x := by
  induction rows with
  | nil => simp [Example.zipStep]
  | cons r rows ih =>
    cases r with
    | nil => exact ⟨fun _ => ⟨[], rows, rfl, by simp⟩, fun _ => rfl⟩
    | cons w ws =>
      have hr : (∃ before after, (w :: ws) :: rows = before ++ [] :: after ∧
          ∀ l ∈ before, ∃ w x, l.head? = some w ∧ parseFloat w = some x) ↔
          (∃ x, parseFloat w = some x) ∧ Example.zipStep rows = .ok none := by
        rw [ih]
        constructor
        · rintro ⟨before, after, h1, h2⟩
          cases before with
          | nil => simp at h1
          | cons b before =>
            simp only [List.cons_append, List.cons.injEq] at h1
            obtain ⟨w', x, h3, h4⟩ := h2 b (by simp)
            rw [← h1.1] at h3
            simp only [List.head?_cons, Option.some.injEq] at h3
            exact ⟨⟨x, h3 ▸ h4⟩, before, after, h1.2, fun l hl => h2 l (by simp [hl])⟩
        · rintro ⟨⟨x, hx⟩, before, after, h1, h2⟩
          refine ⟨(w :: ws) :: before, after, by rw [h1]; rfl, ?_⟩
          intro l hl
          rcases List.mem_cons.1 hl with rfl | hl
          · exact ⟨w, x, rfl, hx⟩
          · exact h2 l hl
      rw [hr, Example.zipStep]
      cases hp : parseFloat w with
      | none => simp
      | some x =>
        cases hz : Example.zipStep rows with
        | error e => simp
        | ok o => cases o <;> simp

theorem zipCols_nil {n : Nat} {rows : List (List Str)} (hne : rows ≠ [])
    (hn : n = (rows.head?.getD []).length) :
    Example.zipCols n rows = .ok [] ↔ Example.zipStep rows = .ok none := by
  cases n with
  | zero =>
    cases rows with
    | nil => exact absurd rfl hne
    | cons r rows =>
      have : r = [] := by simpa using hn.symm
      subst this
      exact ⟨fun _ => rfl, fun _ => rfl⟩
  | succ n =>
    rw [Example.zipCols]
    cases hz : Example.zipStep rows with
    | error e => simp
    | ok o =>
      cases o with
      | none => simp
      | some q =>
        obtain ⟨c, rest⟩ := q
        simp only
        cases Example.zipCols n rest <;> simp

theorem zipCols_step {n : Nat} {rows : List (List Str)} {c : List PyFloat}
    (h : rows.map (fun r => r.head?.map parseFloat) = c.map (fun x => some (some x)))
    {cs : List (List PyFloat)} (hc : Example.zipCols n (rows.map List.tail) = .ok cs) :
    Example.zipCols (n + 1) rows = .ok (c :: cs) := by
  rw [Example.zipCols, zipStep_ok.2 ⟨h, rfl⟩]
  simp only [hc]

theorem begins_split {rows : List (List Str)} {rs : List (PyFloat × PyFloat)}
    (h : rows.map (fun ws => (ws.take 2).map parseFloat) = rs.map (fun r => [some r.1, some r.2])) :
    rows.map (fun r => r.head?.map parseFloat) = (rs.map (·.1)).map (fun x => some (some x)) ∧
    (rows.map List.tail).map (fun r => r.head?.map parseFloat) =
      (rs.map (·.2)).map (fun x => some (some x)) := by
  induction rows generalizing rs with
  | nil => cases rs with
    | nil => simp
    | cons p rs => simp at h
  | cons r rows ih =>
    cases rs with
    | nil => simp at h
    | cons p rs =>
      simp only [List.map_cons, List.cons.injEq] at h
      have := ih h.2
      rcases r with _ | ⟨w, _ | ⟨w', ws⟩⟩
      · simp at h
      · simp at h
      · simp only [List.take_succ_cons, List.take_zero, List.map_cons, List.map_nil,
          List.cons.injEq] at h
        simp only [List.map_cons, List.head?_cons, List.tail_cons, Option.map_some, h.1.1, h.1.2.1,
          this.1, this.2, and_self]

theorem tails_head (l : List Str) : l.tail.tail.head? = l[2]? := by
  rcases l with _ | ⟨a, _ | ⟨b, _ | ⟨c, l⟩⟩⟩ <;> rfl

theorem ends_iff {rows : List (List Str)} (hlen : ∀ r ∈ rows, 2 ≤ r.length) :
    (∃ before after, (rows.map List.tail).map List.tail = before ++ [] :: after ∧
      ∀ l ∈ before, ∃ w x, l.head? = some w ∧ parseFloat w = some x) ↔
    ∃ before ws after, rows = before ++ ws :: after ∧ ws.length = 2 ∧
      ∀ l ∈ before, ∃ w x, l[2]? = some w ∧ parseFloat w = some x := by
  constructor
  · rintro ⟨before, after, h1, h2⟩
    rw [List.map_map] at h1
    obtain ⟨b, rest, rfl, hb, hr⟩ := List.map_eq_append_iff.1 h1
    obtain ⟨ws, a, rfl, hw, _⟩ := List.map_eq_cons_iff.1 hr
    refine ⟨b, ws, a, rfl, ?_, ?_⟩
    · have := hlen ws (by simp)
      have e := congrArg List.length hw
      simp at e
      omega
    · intro l hl
      obtain ⟨w, x, h3, h4⟩ := h2 l.tail.tail (by rw [← hb]; exact List.mem_map_of_mem hl)
      rw [tails_head] at h3
      exact ⟨w, x, h3, h4⟩
  · rintro ⟨before, ws, after, rfl, h1, h2⟩
    refine ⟨(before.map List.tail).map List.tail, (after.map List.tail).map List.tail, ?_, ?_⟩
    · rcases ws with _ | ⟨a, _ | ⟨b, _ | ⟨c, l⟩⟩⟩ <;> simp at h1 ⊢
    · intro l hl
      simp only [List.map_map, List.mem_map, Function.comp] at hl
      obtain ⟨l', hl', rfl⟩ := hl
      obtain ⟨w, x, h3, h4⟩ := h2 l' hl'
      exact ⟨w, x, by rw [tails_head]; exact h3, h4⟩

/-- C115: exactly when the script succeeds: the first two words of each line are numbers, and the
columns end there. -/
theorem C115_exactly (text : Str) :
    (Example.run text).2 = .ok () ↔ (∃ rs, TableBegins text rs) ∧ EndsAtTwo text := by
  have hcols : (Example.run text).2 = .ok () ↔ ∃ a b, Example.twoColumns text = .ok (a, b) := by
    cases h : Example.twoColumns text with
    | error e => simp [Example.run, h]
    | ok p =>
      obtain ⟨a, b⟩ := p
      simp [run_eq h]
  have htwo : (∃ a b, Example.twoColumns text = .ok (a, b)) ↔ ∃ a b,
      Example.zipCols (((tableLines text).head?.getD []).length) (tableLines text) = .ok [a, b] := by
    unfold Example.twoColumns
    rw [show (splitlines (strip text)).map splitWs = tableLines text from rfl]
    simp only
    split
    · rename_i e h; simp [h]
    · rename_i a b h; simp [h]
    · rename_i cs h1 h2
      simp only [reduceCtorEq, exists_false, false_iff, not_exists]
      intro a b h
      rw [h] at h2
      injection h2 with h2
      exact h1 a b h2.symm
  rw [hcols, htwo]
  unfold TableBegins EndsAtTwo
  generalize tableLines text = rows
  have hlen : ∀ rs : List (PyFloat × PyFloat),
      rows.map (fun ws => (ws.take 2).map parseFloat) = rs.map (fun r => [some r.1, some r.2]) →
      ∀ r ∈ rows, 2 ≤ r.length := by
    intro rs h r hr
    have : (r.take 2).map parseFloat ∈ rs.map (fun r => [some r.1, some r.2]) := by
      rw [← h]; exact List.mem_map_of_mem hr
    obtain ⟨q, _, hq⟩ := List.mem_map.1 this
    have := congrArg List.length hq
    simp at this
    omega
  constructor
  · rintro ⟨a, b, h⟩
    obtain ⟨m, hm, h1, h⟩ := zipCols_cons h
    obtain ⟨k, hk, h2, h⟩ := zipCols_cons h
    obtain ⟨rs, _, _, hr⟩ := begins_of h1 h2
    refine ⟨⟨rs, hr⟩, (ends_iff (hlen rs hr)).1 (zipStep_none.1 ?_)⟩
    have hne : rows ≠ [] := by rintro rfl; simp at hm
    refine (zipCols_nil (by simpa using hne) ?_).1 h
    cases rows with
    | nil => exact absurd rfl hne
    | cons r rows =>
      simp at hm ⊢
      omega
  · rintro ⟨⟨rs, hr⟩, he⟩
    have hs := begins_split hr
    have hz := zipStep_none.2 ((ends_iff (hlen rs hr)).2 he)
    have hne : rows ≠ [] := by
      rintro rfl
      obtain ⟨b, w, a, h, _⟩ := he
      simp at h
    have h3 := (zipCols_nil (by simpa using hne) rfl).2 hz
    refine ⟨rs.map (·.1), rs.map (·.2), ?_⟩
    have e : (rows.head?.getD []).length =
        ((((rows.map List.tail).map List.tail).head?.getD []).length) + 1 + 1 := by
      cases rows with
      | nil => exact absurd rfl hne
      | cons r rows =>
        have := hlen rs hr r (by simp)
        simp
        omega
    rw [e]
    exact zipCols_step hs.1 (zipCols_step hs.2 h3)

/-- two rows of numbers, with blank lines around them -/
def exampleText : Str := p!"\n17.5    1037\n17 2.857e3\n"

/-- C115: the hypotheses are met by a table with two rows; a third column is a ValueError, a longer
line is not if another line has two words. -/
theorem C115_nonvacuous :
    (Table exampleText [(.fin (35/2), .fin 1037), (.fin 17, .fin 2857)]) ∧
    (Example.run p!"1 2 3\n4 5 6").1 = none ∧
    (Example.run p!"1 2 3\n4 5").2 = .ok () ∧
    (Example.run p!"1 2 x\n4 5").2 = .error .ValueError ∧
    (Example.run p!"1 2\n4 5 x").2 = .ok () := by
  refine ⟨?_, ?_, ?_, ?_, ?_⟩
  · unfold Table
    decide +kernel
  all_goals decide +kernel

end S2N.Props
