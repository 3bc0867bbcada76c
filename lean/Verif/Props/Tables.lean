import Verif.Lemmas.Post
import Verif.Props.Lines
/-
C26, C27, C31: rows of names paired with rows of values.
-/
namespace S2N.Spec
open S2N S2N.Py

/-- The entries of two tables that are at the same row and column, row by row. -/
def pairTables {α β : Type} (names : List (List α)) (values : List (List β)) : List (α × β) :=
  (names.zip values).flatMap (fun r => r.1.zip r.2)

/-- comment about the value at column `col` (from 0) of row `row` -/
def extraValue (row col : Nat) : Str :=
  p!"extra value in #P" ++ natStr row ++ p!" position " ++ natStr (col + 1) ++
    p!", no matching label in #O" ++ natStr row

/-- comments on the rows of values: one for each row without names, one for each value beyond
the names of its row -/
def positionComments (names values : List (List Str)) : List Str :=
  (List.range values.length).flatMap fun r =>
    match names[r]?, values[r]? with
    | some ns, some vs => (List.range' ns.length (vs.length - ns.length)).map (extraValue r)
    | _, _ => [p!"#P" ++ natStr r ++ p!" found without #O" ++ natStr r]

end S2N.Spec

namespace S2N.Props
open S2N S2N.Py S2N.Spec

/-! ### Positions -/

theorem positionRow_ok (row : Nat) (names : List Str) : ∀ (vs : List Str) (col : Nat)
    (s : Dict PyFloat × List Str), (positionRow row names col vs s).2 = none →
    ∃ ps, List.Forall₂ (fun (p : Str × Str) (q : Str × PyFloat) => p.1 = q.1 ∧ Py.float p.2 = .ok q.2)
        ((names.drop col).zip vs) ps ∧
      (positionRow row names col vs s).1 =
        (ps.foldl (fun d kv => d.set kv.1 kv.2) s.1,
         s.2 ++ (List.range' (max col names.length) (col + vs.length - max col names.length)).map (extraValue row))
  | [], col, s, _ => by
    refine ⟨[], by simp, ?_⟩
    have : col + ([] : List Str).length - max col names.length = 0 := by simp only [List.length_nil]; omega
    rw [this]; simp [positionRow, Res.ok]
  | v :: vs, col, s, h => by
    unfold positionRow at h ⊢
    cases hn : names[col]? with
    | none =>
      rw [hn] at h
      simp only at h ⊢
      obtain ⟨ps, h1, h2⟩ := positionRow_ok row names vs (col + 1) _ h
      have hlen : names.length ≤ col := by simpa using hn
      have d1 : names.drop col = [] := List.drop_eq_nil_of_le hlen
      have d2 : names.drop (col + 1) = [] := List.drop_eq_nil_of_le (by omega)
      rw [d1, List.zip_nil_left]
      rw [d2, List.zip_nil_left] at h1
      cases h1
      refine ⟨[], by simp, ?_⟩
      rw [h2]
      have e1 : max col names.length = col := by omega
      have e2 : max (col + 1) names.length = col + 1 := by omega
      have e3 : col + (v :: vs).length - col = vs.length + 1 := by simp
      have e4 : col + 1 + vs.length - (col + 1) = vs.length := by omega
      rw [e1, e2, e3, e4, List.range'_succ]
      simp [extraValue]
    | some mne =>
      rw [hn] at h
      simp only at h ⊢
      unfold Res.eval at h ⊢
      cases hf : Py.float v with
      | error e => rw [hf] at h; simp [Res.raise] at h
      | ok f =>
        rw [hf] at h
        simp only at h ⊢
        obtain ⟨ps, h1, h2⟩ := positionRow_ok row names vs (col + 1) _ h
        have hlen : col < names.length := by
          rcases Nat.lt_or_ge col names.length with h | h
          · exact h
          · rw [List.getElem?_eq_none h] at hn; cases hn
        have d1 : names.drop col = mne :: names.drop (col + 1) := by
          rw [List.drop_eq_getElem_cons hlen]
          rw [List.getElem?_eq_getElem hlen] at hn
          cases hn; rfl
        rw [d1, List.zip_cons_cons]
        refine ⟨(mne, f) :: ps, List.Forall₂.cons ⟨rfl, hf⟩ h1, ?_⟩
        rw [h2]
        have e1 : max col names.length = names.length := by omega
        have e2 : max (col + 1) names.length = names.length := by omega
        have e3 : col + (v :: vs).length = col + 1 + vs.length := by simp only [List.length_cons]; omega
        rw [e1, e2, e3]
        rfl

theorem positionRows_ok (O : List (List Str)) : ∀ (P : List (List Str)) (row : Nat)
    (s : Dict PyFloat × List Str), (positionRows O row P s).2 = none →
    ∃ ps, List.Forall₂ (fun (p : Str × Str) (q : Str × PyFloat) => p.1 = q.1 ∧ Py.float p.2 = .ok q.2)
        (pairTables (O.drop row) P) ps ∧
      (positionRows O row P s).1 =
        (ps.foldl (fun d kv => d.set kv.1 kv.2) s.1,
         s.2 ++ (List.range P.length).flatMap (fun r =>
          match O[row + r]?, P[r]? with
          | some ns, some vs => (List.range' ns.length (vs.length - ns.length)).map (extraValue (row + r))
          | _, _ => [p!"#P" ++ natStr (row + r) ++ p!" found without #O" ++ natStr (row + r)]))
  | [], row, s, _ => by refine ⟨[], by simp [pairTables], by simp [positionRows, Res.ok]⟩
  | vs :: P, row, s, h => by
    unfold positionRows at h ⊢
    have hsh : ∀ (f : Nat → Nat → Option (List Str) → List Str),
        (List.range (vs :: P).length).flatMap (fun r => f (row + r) r ((vs :: P)[r]?)) =
        f row 0 (some vs) ++ (List.range P.length).flatMap (fun r => f (row + 1 + r) (r + 1) (P[r]?)) := by
      intro f
      rw [List.length_cons, List.range_succ_eq_map, List.flatMap_cons, List.flatMap_map]
      simp [Nat.add_assoc, Nat.add_comm 1]
    cases hO : O[row]? with
    | none =>
      rw [hO] at h
      simp only at h ⊢
      obtain ⟨ps, h1, h2⟩ := positionRows_ok O P (row + 1) _ h
      have hlen : O.length ≤ row := by simpa using hO
      have d1 : O.drop row = [] := List.drop_eq_nil_of_le hlen
      have d2 : O.drop (row + 1) = [] := List.drop_eq_nil_of_le (by omega)
      rw [d2] at h1
      rw [d1]
      have : ps = [] := by simpa [pairTables] using h1
      subst this
      refine ⟨[], by simp [pairTables], ?_⟩
      rw [h2]
      have := hsh (fun q _ v => match O[q]?, v with
          | some ns, some vs => (List.range' ns.length (vs.length - ns.length)).map (extraValue q)
          | _, _ => [p!"#P" ++ natStr q ++ p!" found without #O" ++ natStr q])
      rw [this, hO]
      simp only [List.foldl_nil, List.append_assoc]
    | some ns =>
      rw [hO] at h
      simp only at h ⊢
      obtain ⟨g1, g2, g3⟩ := andThen_none h
      rw [g2]
      obtain ⟨p1, a1, a2⟩ := positionRow_ok row ns vs 0 s g1
      obtain ⟨ps, h1, h2⟩ := positionRows_ok O P (row + 1) _ g3
      have hlen : row < O.length := by
        rcases Nat.lt_or_ge row O.length with h | h
        · exact h
        · rw [List.getElem?_eq_none h] at hO; cases hO
      have d1 : O.drop row = ns :: O.drop (row + 1) := by
        rw [List.drop_eq_getElem_cons hlen]
        rw [List.getElem?_eq_getElem hlen] at hO
        cases hO; rfl
      refine ⟨p1 ++ ps, ?_, ?_⟩
      · rw [d1]
        simp only [pairTables, List.zip_cons_cons, List.flatMap_cons]
        rw [List.drop_zero] at a1
        exact List.rel_append a1 h1
      · rw [h2, a2]
        have := hsh (fun q _ v => match O[q]?, v with
            | some ns, some vs => (List.range' ns.length (vs.length - ns.length)).map (extraValue q)
            | _, _ => [p!"#P" ++ natStr q ++ p!" found without #O" ++ natStr q])
        rw [this, hO, List.foldl_append]
        simp only [Nat.zero_add, Nat.zero_max, List.append_assoc]

section
variable [UniDB] (env : Env) (reg : List HKey) (hr : reg.Perm HKey.all)

omit [UniDB] in
theorem fresh_post {x : Obj} (h : Fresh x) : x.post = [] := by
  obtain ⟨_, _, _, _, _, _, _, _, _, e⟩ := h; rw [e]; rfl

omit [UniDB] in
theorem fresh_ic {x : Obj} (h : Fresh x) : x.interpComments = [] := by
  obtain ⟨_, _, _, _, _, _, _, _, _, e⟩ := h; rw [e]; rfl

include hr in
/-- what is known when a post-processor runs -/
theorem interp_post {β γ : Type} (f0 : PostFn) (h0 : soleLabel f0) (π : ScanCtx → β) (ins : ScanCtx → γ)
    (h1 : ∀ f c, f ≠ f0 → π (runPost env f c).1 = π c)
    (h2 : ∀ f c, f ≠ f0 → ins (runPost env f c).1 = ins c)
    (hin : ∀ (c : ScanCtx) b, π { c with scan := { c.scan with interpreted := b } } = π c)
    (c : ScanCtx) (hf : Fresh c.scan) (hok : (interpretScan env reg c).2 = none)
    (hl : ∃ l ∈ scanLines c.scan.raw, ∃ k, postOf k = some f0 ∧ isKind k l = true) :
    ∃ c1 c', forEach (scanLine env reg) (scanLines c.scan.raw)
        { c with scan := { c.scan with lazy := false } } = (c1, none) ∧
      ins c' = ins c1 ∧ (runPost env f0 c').2 = none ∧
      π (interpretScan env reg c).1 = π (runPost env f0 c').1 := by
  obtain ⟨c1, c2, e1, e2, e3⟩ := interpret_ok env reg c (fresh_interpreted hf) hok
  have hp : ({ c with scan := { c.scan with lazy := false } } : ScanCtx).scan.post = [] := by
    show c.scan.post = []; exact fresh_post hf
  have hm := (lines_post_mem env reg hr _ (scanLines_no_nl _) _ hp (by rw [e1]) h0).2 hl
  have hn := lines_post_nodup env reg (scanLines c.scan.raw) _ hp (by rw [e1])
  rw [e1] at hm hn
  obtain ⟨c', a1, a2, a3⟩ := post_ran env f0 π ins h1 h2 _ c1 c2 e2 hn hm
  exact ⟨c1, c', e1, a1, a2, by rw [e3, hin, a3]⟩

include hr in
theorem interp_no_post {β : Type} (f0 : PostFn) (h0 : soleLabel f0) (π : ScanCtx → β)
    (h1 : ∀ f c, f ≠ f0 → π (runPost env f c).1 = π c)
    (hin : ∀ (c : ScanCtx) b, π { c with scan := { c.scan with interpreted := b } } = π c)
    (c : ScanCtx) (hf : Fresh c.scan) (hok : (interpretScan env reg c).2 = none)
    (hl : ¬∃ l ∈ scanLines c.scan.raw, ∃ k, postOf k = some f0 ∧ isKind k l = true) :
    ∃ c1, forEach (scanLine env reg) (scanLines c.scan.raw)
        { c with scan := { c.scan with lazy := false } } = (c1, none) ∧
      π (interpretScan env reg c).1 = π c1 := by
  obtain ⟨c1, c2, e1, e2, e3⟩ := interpret_ok env reg c (fresh_interpreted hf) hok
  have hp : ({ c with scan := { c.scan with lazy := false } } : ScanCtx).scan.post = [] := by
    show c.scan.post = []; exact fresh_post hf
  have hm := fun h => hl ((lines_post_mem env reg hr _ (scanLines_no_nl _) _ hp (by rw [e1]) h0).1 h)
  rw [e1] at hm
  exact ⟨c1, e1, by rw [e3, hin, post_not_ran env f0 π h1 _ c1 c2 e2 hm]⟩

include hr in
/-- the words of the #P lines -/
theorem interp_P (c : ScanCtx) (hf : Fresh c.scan) (hok : (interpretScan env reg c).2 = none) :
    (interpretScan env reg c).1.scan.P =
      some ((ofKind .P (scanLines c.scan.raw)).map (fun l => splitWs (stripFirstWord l))) := by
  rw [interp_kind env reg hr .P (by simp) (by simp) (·.P)
    (fun l b => b.map (· ++ [splitWs (stripFirstWord l)])) ?_
    (fun k t c hk => ps_P env k t c hk) (pp_P env) (fun _ _ => rfl) (fun _ _ => rfl) c
    (fresh_interpreted hf) hok]
  · have h0 : c.scan.P = some [] := by obtain ⟨_, _, _, _, _, _, _, _, _, e⟩ := hf; rw [e]; rfl
    rw [h0]
    generalize ofKind .P (scanLines c.scan.raw) = ls
    have : ∀ (ls : List Str) (b : List (List Str)),
        ls.foldl (fun b l => Option.map (· ++ [splitWs (stripFirstWord l)]) b) (some b) =
          some (b ++ ls.map (fun l => splitWs (stripFirstWord l))) := by
      intro ls
      induction ls with
      | nil => intro b; simp
      | cons l ls ih => intro b; rw [List.foldl_cons, Option.map_some, ih]; simp
    simpa using this ls []
  · intro t c hc
    simp only [procScan, onScan, procObj, procP] at hc ⊢
    split at hc
    · simp [Res.raise] at hc
    · next h => simp [Res.ok, Obj.addPost, h]

include hr in
/-- **C26.**  After interpretation, `scan.positioner` holds, for each name of the #O lines (as the
header has them), the number at the same row and column of the #P lines of the scan: names in the
order of first appearance, the last one winning if a name is repeated.  All other values are
reported, in order, in the interpreter comments; nothing else is reported. -/
theorem C26_positioners (c : ScanCtx) (hf : Fresh c.scan) (hok : (interpretScan env reg c).2 = none) :
    let c' := (interpretScan env reg c).1
    let P := (ofKind .P (scanLines c.scan.raw)).map (fun l => splitWs (stripFirstWord l))
    let O := c'.hdr.O.getD []
    c'.scan.P = some P ∧
    (∃ ps, List.Forall₂ (fun (p : Str × Str) (q : Str × PyFloat) =>
        p.1 = q.1 ∧ Py.float p.2 = .ok q.2) (pairTables O P) ps ∧ LastWins c'.scan.positioner ps) ∧
    c'.scan.interpComments = positionComments O P := by
  intro c' P O
  have hP := interp_P env reg hr c hf hok
  refine ⟨hP, ?_⟩
  by_cases hl : ∃ l ∈ scanLines c.scan.raw, ∃ k, postOf k = some .positions ∧ isKind k l = true
  · obtain ⟨c1, c0, e1, a1, a2, a3⟩ := interp_post env reg hr .positions (by simp [soleLabel])
      (fun c => (c.scan.positioner, c.scan.interpComments, c.hdr, c.scan.P))
      (fun c => (c.scan.interpComments, c.hdr, c.scan.P))
      (fun f c h => by simp only [pp_positioner env f c h, pp_interpComments env f c h, pp_hdr, pp_P])
      (fun f c h => by simp only [pp_interpComments env f c h, pp_hdr, pp_P])
      (fun c b => rfl) c hf hok hl
    have hic : c1.scan.interpComments = [] := by
      have := forEach_pres (scanLine env reg) (fun c => c.scan.interpComments) (scanLines c.scan.raw)
        (fun l _ s => by
          rw [scanLine_eq]
          split
          · rfl
          · exact ps_interpComments env _ _ s) { c with scan := { c.scan with lazy := false } }
      rw [e1] at this
      rw [this]; show c.scan.interpComments = []; exact fresh_ic hf
    simp only [Prod.mk.injEq] at a1 a3
    obtain ⟨b1, b2, b3⟩ := a1
    obtain ⟨d1, d2, d3, d4⟩ := a3
    rw [hic] at b1
    rw [pp_P] at d4
    rw [pp_hdr] at d3
    have hP0 : c0.scan.P = some P := by rw [← d4]; exact hP
    have hO0 : c0.hdr.O.getD [] = O := by rw [← d3]
    simp only [runPost, postPositions, hP0, hO0, b1, Option.getD_some] at a2 d1 d2
    cases hr2 : (positionRows O 0 P ([], [])).2 with
    | some e => rw [hr2] at a2; simp [Res.raise] at a2
    | none =>
      obtain ⟨ps, q1, q2⟩ := positionRows_ok O P 0 ([], []) hr2
      rw [hr2] at d1 d2
      simp only [Res.ok] at d1 d2
      have d1' : c'.scan.positioner = (positionRows O 0 P ([], [])).1.1 := by
        rw [d1]; split <;> rfl
      have d2' : c'.scan.interpComments = (positionRows O 0 P ([], [])).1.2 := by
        rw [d2]; split <;> rfl
      rw [d1', d2', q2]
      rw [List.drop_zero] at q1
      refine ⟨⟨ps, q1, ?_⟩, ?_⟩
      · simpa using lastWins_foldl ps [] [] lastWins_nil
      · simp only [List.nil_append, positionComments, Nat.zero_add]
  · obtain ⟨c1, e1, a1⟩ := interp_no_post env reg hr .positions (by simp [soleLabel])
      (fun c => (c.scan.positioner, c.scan.interpComments))
      (fun f c h => by simp only [pp_positioner env f c h, pp_interpComments env f c h])
      (fun c b => rfl) c hf hok hl
    have hic : (c1.scan.positioner, c1.scan.interpComments) = ([], []) := by
      have := forEach_pres (scanLine env reg) (fun c => (c.scan.positioner, c.scan.interpComments))
        (scanLines c.scan.raw)
        (fun l _ s => by
          rw [scanLine_eq]
          split
          · rfl
          · simp only [ps_interpComments, ps_positioner]) { c with scan := { c.scan with lazy := false } }
      rw [e1] at this
      rw [this]
      obtain ⟨_, _, _, _, _, _, _, _, _, e⟩ := hf; rw [e]; rfl
    rw [hic] at a1
    simp only [Prod.mk.injEq] at a1
    have hPn : P = [] := by
      show List.map _ _ = []
      rw [List.map_eq_nil_iff]
      apply List.filter_eq_nil_iff.2
      intro l hl' hk
      exact hl ⟨l, hl', .P, rfl, hk⟩
    refine ⟨⟨[], by rw [hPn]; simp [pairTables], ?_⟩, ?_⟩
    · show LastWins c'.scan.positioner []
      rw [show c'.scan.positioner = [] from a1.1]; exact lastWins_nil
    · rw [show c'.scan.interpComments = [] from a1.2, hPn]; rfl

/-! ### UNICAT metadata -/

omit [UniDB] in
theorem metaRow_ok (labels : List Str) : ∀ (vs : List Str) (col : Nat) (d : Dict MVal),
    (metaRow labels col vs d).2 = none →
    (vs.length ≤ (labels.drop col).length) ∧
    (metaRow labels col vs d).1 =
      (((labels.drop col).zip vs).map (fun p => (p.1, metaVal p.2))).foldl
        (fun d kv => d.set kv.1 kv.2) d
  | [], col, d, _ => by simp [metaRow, Res.ok]
  | v :: vs, col, d, h => by
    unfold metaRow at h ⊢
    cases hn : labels[col]? with
    | none => rw [hn] at h; simp [Res.raise] at h
    | some l =>
      rw [hn] at h
      simp only at h ⊢
      obtain ⟨h1, h2⟩ := metaRow_ok labels vs (col + 1) _ h
      have hlen : col < labels.length := by
        rcases Nat.lt_or_ge col labels.length with h | h
        · exact h
        · rw [List.getElem?_eq_none h] at hn; cases hn
      have d1 : labels.drop col = l :: labels.drop (col + 1) := by
        rw [List.drop_eq_getElem_cons hlen]
        rw [List.getElem?_eq_getElem hlen] at hn
        cases hn; rfl
      rw [d1, h2]
      exact ⟨by simpa using h1, rfl⟩

omit [UniDB] in
theorem metaRows_ok (H : List (List Str)) : ∀ (V : List (List Str)) (row : Nat) (d : Dict MVal),
    (metaRows H row V d).2 = none →
    (∀ r vs, V[r]? = some vs → ∃ ls, H[row + r]? = some ls ∧ vs.length ≤ ls.length) ∧
    (metaRows H row V d).1 =
      ((pairTables (H.drop row) V).map (fun p => (p.1, metaVal p.2))).foldl
        (fun d kv => d.set kv.1 kv.2) d
  | [], row, d, _ => by simp [metaRows, Res.ok, pairTables]
  | vs :: V, row, d, h => by
    unfold metaRows at h ⊢
    cases hn : H[row]? with
    | none => rw [hn] at h; simp [Res.raise] at h
    | some ls =>
      rw [hn] at h
      simp only at h ⊢
      obtain ⟨g1, g2, g3⟩ := andThen_none h
      rw [g2]
      obtain ⟨a1, a2⟩ := metaRow_ok ls vs 0 d g1
      obtain ⟨h1, h2⟩ := metaRows_ok H V (row + 1) _ g3
      have hlen : row < H.length := by
        rcases Nat.lt_or_ge row H.length with h | h
        · exact h
        · rw [List.getElem?_eq_none h] at hn; cases hn
      have d1 : H.drop row = ls :: H.drop (row + 1) := by
        rw [List.drop_eq_getElem_cons hlen]
        rw [List.getElem?_eq_getElem hlen] at hn
        cases hn; rfl
      refine ⟨?_, ?_⟩
      · intro r ws hr
        cases r with
        | zero => simp at hr; subst hr; exact ⟨ls, hn, by simpa using a1⟩
        | succ r =>
          obtain ⟨l2, e1, e2⟩ := h1 r ws (by simpa using hr)
          exact ⟨l2, by rw [← e1]; congr 1; omega, e2⟩
      · rw [h2, a2, d1]
        simp only [pairTables, List.zip_cons_cons, List.flatMap_cons, List.map_append,
          List.foldl_append, List.drop_zero]

omit [UniDB] in
theorem dateHdr_H (env : Env) (c : ScanCtx) : (dateHdr env c).1.hdr.H = c.hdr.H := by
  unfold dateHdr
  simp only [Res.ok, Res.raise, Res.eval]
  repeat' split
  all_goals rfl

omit [UniDB] in
theorem ps_hdr_H (env : Env) (k : HKey) (l : Str) (s : ScanCtx) :
    (procScan env k l s).1.hdr.H = s.hdr.H := by
  by_cases hO : k = .O
  · subst hO
    simp only [procScan, onHdr]
    exact po_H env .O l s.hdr (by simp)
  · by_cases hD : k = .D
    · subst hD
      simp only [procScan, Res.andThen]
      split
      · rw [dateHdr_H]; rfl
      · rfl
    · rw [ps_hdr env k l s hO hD]

/-- header labels do not change while a scan is interpreted -/
theorem interp_hdr_H (c : ScanCtx) (hi : c.scan.interpreted = false)
    (hok : (interpretScan env reg c).2 = none) :
    (interpretScan env reg c).1.hdr.H = c.hdr.H := by
  obtain ⟨c1, c2, e1, e2, e3⟩ := interpret_ok env reg c hi hok
  rw [e3]
  have h2 := forEach_pres (runPost env) (fun c => c.hdr.H) c1.scan.post.values
    (fun f _ c => by rw [pp_hdr]) c1
  rw [e2] at h2
  have h1 := forEach_pres (scanLine env reg) (fun c => c.hdr.H) (scanLines c.scan.raw)
    (fun l _ s => by
      rw [scanLine_eq]
      split
      · rfl
      · exact ps_hdr_H env _ l s) { c with scan := { c.scan with lazy := false } }
  rw [e1] at h1
  exact h2.trans h1

/-- values of the `i`-th #V line: fields separated by two spaces if that gives one for each label
of the #H line, else by one space -/
def vRow (H : List (List Str)) (i : Nat) (line : Str) : List Str := valuesV (H.getD i []) line

include hr in
/-- the values of the #V lines -/
theorem interp_V (c : ScanCtx) (hf : Fresh c.scan) (hok : (interpretScan env reg c).2 = none)
    (H : List (List Str)) (hH : c.hdr.H = some H) :
    (interpretScan env reg c).1.scan.V =
      some ((ofKind .V (scanLines c.scan.raw)).mapIdx (vRow H)) := by
  obtain ⟨c1, c2, e1, e2, e3⟩ := interpret_ok env reg c (fresh_interpreted hf) hok
  have h2 := forEach_pres (runPost env) (fun c => c.scan.V) c1.scan.post.values
    (fun f _ c => pp_V env f c) c1
  rw [e2] at h2
  rw [e3]
  show c2.scan.V = _
  rw [h2]
  have hfold := forEach_fold (scanLine env reg) (fun c => (c.hdr.H, c.scan.V))
    (fun l b => match effKey reg l with
      | some .V => (b.1, b.2.map (fun rows => rows ++ [vRow (b.1.getD []) rows.length l]))
      | _ => b)
    (by
      intro l s hs
      rw [scanLine_eq] at hs ⊢
      cases hk : effKey reg l with
      | none => rfl
      | some k =>
        rw [hk] at hs
        simp only at hs ⊢
        rw [ps_hdr_H]
        by_cases e : k = .V
        · subst e
          simp only [procScan, procV] at hs ⊢
          split at hs
          · simp [Res.raise] at hs
          · next rows hv =>
            split at hs
            · simp [Res.raise] at hs
            · next Hs hHs =>
              split at hs
              · simp [Res.raise] at hs
              · next labels hlab => simp [Res.ok, Obj.addPost, hv, hHs, hlab, vRow, List.getD]
        · rw [ps_V env k l s e]
          cases k <;> first | rfl | exact absurd rfl e)
    (scanLines c.scan.raw) { c with scan := { c.scan with lazy := false } } (by rw [e1])
  rw [e1] at hfold
  have hV0 : c.scan.V = some [] := by obtain ⟨_, _, _, _, _, _, _, _, _, e⟩ := hf; rw [e]; rfl
  rw [foldl_filter_eq (isKind .V) _
    (fun b l => (b.1, b.2.map (fun rows => rows ++ [vRow (b.1.getD []) rows.length l])))
    (scanLines c.scan.raw) _ (by
      intro l hl b
      have := effKey_iff reg hr l (scanLines_no_nl _ l hl) .V (by simp) (by simp)
      by_cases hv : isKind .V l = true
      · rw [if_pos hv, this.2 hv]
      · rw [if_neg hv]
        split
        · next h => exact absurd (this.1 h) hv
        · rfl)] at hfold
  have key : ∀ (ls : List Str) (n : Nat) (rows : List (List Str)), rows.length = n →
      ls.foldl (fun (b : Option (List (List Str)) × Option (List (List Str))) l =>
        (b.1, b.2.map (fun rows => rows ++ [vRow (b.1.getD []) rows.length l]))) (some H, some rows) =
      (some H, some (rows ++ ls.mapIdx (fun i l => vRow H (n + i) l))) := by
    intro ls
    induction ls with
    | nil => intro n rows _; simp
    | cons l ls ih =>
      intro n rows hn
      rw [List.foldl_cons]
      simp only [Option.map_some, Option.getD_some]
      rw [ih (n + 1) _ (by simp [hn]), List.mapIdx_cons, hn]
      simp [Nat.add_assoc, Nat.add_comm 1]
  have hh := congrArg Prod.snd hfold
  simp only [hH, hV0] at hh
  rw [key _ 0 [] rfl] at hh
  simp only [List.nil_append, Nat.zero_add] at hh
  exact hh

include hr in
/-- **C27.**  After a successful interpretation of a scan with #V lines, `scan.metadata` pairs each
label of the #H lines with the value at the same row and column of the #V lines, as a number where
possible; labels in the order of first appearance, the last value winning for repeated labels.
Every value had a label. -/
theorem C27_metadata (c : ScanCtx) (hf : Fresh c.scan) (hok : (interpretScan env reg c).2 = none)
    (H : List (List Str)) (hH : c.hdr.H = some H) (hl : ofKind .V (scanLines c.scan.raw) ≠ []) :
    let V := (ofKind .V (scanLines c.scan.raw)).mapIdx (vRow H)
    (interpretScan env reg c).1.scan.V = some V ∧
    (∀ (r : Nat) (vs : List Str), V[r]? = some vs → ∃ ls : List Str, H[r]? = some ls ∧
      vs.length ≤ ls.length) ∧
    ∃ d, (interpretScan env reg c).1.scan.metadata = some d ∧
      LastWins d ((pairTables H V).map (fun p => (p.1, metaVal p.2))) := by
  intro V
  have hV := interp_V env reg hr c hf hok H hH
  refine ⟨hV, ?_⟩
  obtain ⟨l, hl⟩ := List.exists_mem_of_ne_nil _ hl
  obtain ⟨hl1, hl2⟩ := List.mem_filter.1 hl
  obtain ⟨c1, c0, e1, a1, a2, a3⟩ := interp_post env reg hr .unicat (by simp [soleLabel])
    (fun c => (c.scan.metadata, c.hdr, c.scan.V)) (fun c => (c.hdr, c.scan.V))
    (fun f c h => by simp only [pp_metadata env f c h, pp_hdr, pp_V])
    (fun f c h => by simp only [pp_hdr, pp_V])
    (fun c b => rfl) c hf hok ⟨l, hl1, .V, rfl, hl2⟩
  simp only [Prod.mk.injEq, pp_hdr, pp_V] at a1 a3
  obtain ⟨d1, d2, d3⟩ := a3
  have hV0 : c0.scan.V = some V := by rw [← d3]; exact hV
  have hH0 : c0.hdr.H = some H := by
    rw [← d2, interp_hdr_H env reg c (fresh_interpreted hf) hok, hH]
  simp only [runPost, postUnicat, hV0, hH0, Option.getD_some] at a2 d1
  cases hr2 : (metaRows H 0 V []).2 with
  | some e => rw [hr2] at a2; simp [Res.raise] at a2
  | none =>
    obtain ⟨q1, q2⟩ := metaRows_ok H V 0 [] hr2
    rw [hr2] at d1
    simp only [Res.ok, Obj.addH5] at d1
    refine ⟨fun r vs h => by simpa using q1 r vs h, _, d1, ?_⟩
    rw [q2, List.drop_zero]
    simpa using lastWins_foldl ((pairTables H V).map (fun p => (p.1, metaVal p.2))) [] [] lastWins_nil

end
/-! ### How a #V line is cut into values -/

theorem splitTwo_clean : ∀ (v : Str), ' ' ∉ v → splitTwo v = [v]
  | [], _ => rfl
  | [c], _ => rfl
  | c :: d :: ds, h => by
    have h1 : c ≠ ' ' := fun e => h (by simp [e])
    rw [splitTwo, if_neg (fun e => h1 e.1), splitTwo_clean (d :: ds) (fun e => h (by simp [e]))]
    rfl

theorem splitTwo_append : ∀ (v rest : Str), ' ' ∉ v →
    splitTwo (v ++ ' ' :: ' ' :: rest) = v :: splitTwo rest
  | [], rest, _ => by simp [splitTwo]
  | [c], rest, h => by
    have h1 : c ≠ ' ' := fun e => h (by simp [e])
    show splitTwo (c :: ' ' :: ' ' :: rest) = _
    rw [splitTwo, if_neg (fun e => h1 e.1)]
    simp [splitTwo, consHead]
  | c :: d :: ds, rest, h => by
    have h1 : c ≠ ' ' := fun e => h (by simp [e])
    have := splitTwo_append (d :: ds) rest (fun e => h (by simp [e]))
    show splitTwo (c :: d :: (ds ++ ' ' :: ' ' :: rest)) = _
    rw [splitTwo, if_neg (fun e => h1 e.1)]
    rw [List.cons_append] at this
    rw [this]; rfl

theorem splitTwo_join : ∀ (vs : List Str), vs ≠ [] → (∀ v ∈ vs, ' ' ∉ v) →
    splitTwo (join [' ', ' '] vs) = vs
  | [], h, _ => absurd rfl h
  | [v], _, h => by simpa [join] using splitTwo_clean v (h v (by simp))
  | v :: w :: ws, _, h => by
    have e : join [' ', ' '] (v :: w :: ws) = v ++ ' ' :: ' ' :: join [' ', ' '] (w :: ws) := by
      simp [join]
    rw [e, splitTwo_append v _ (h v (by simp)),
      splitTwo_join (w :: ws) (by simp) (fun u hu => h u (by simp [hu]))]

/-- values separated by single spaces hold no double space -/
theorem splitTwo_single : ∀ (vs : List Str), vs ≠ [] → (∀ v ∈ vs, ' ' ∉ v ∧ v ≠ []) →
    (splitTwo (join [' '] vs)).length = 1 := by
  have one : ∀ (s : Str), (∀ a b, s ≠ a ++ ' ' :: ' ' :: b) → (splitTwo s).length = 1 := by
    intro s
    induction s with
    | nil => intro _; rfl
    | cons c s ih =>
      intro h
      cases s with
      | nil => rfl
      | cons d ds =>
        rw [splitTwo, if_neg]
        · have := ih (fun a b e => h (c :: a) b (by rw [e]; rfl))
          cases hsp : splitTwo (d :: ds) with
          | nil => rw [hsp] at this; cases this
          | cons x xs => rw [hsp] at this; simpa [consHead] using this
        · rintro ⟨rfl, rfl⟩; exact h [] ds rfl
  intro vs hne h
  apply one
  intro a b e
  have hs : splitC ' ' (join [' '] vs) = vs := splitC_join ' ' vs hne (fun v hv => (h v hv).1)
  have : ([] : Str) ∈ (splitC ' ' (a ++ ' ' :: ' ' :: b)).tail := by
    clear * -
    unfold splitC
    induction a with
    | nil => simp [splitP]
    | cons c a ih =>
      rw [List.cons_append, splitP]
      split
      · exact List.mem_of_mem_tail ih
      · cases hsp : splitP (fun x => x == ' ') (a ++ ' ' :: ' ' :: b) with
        | nil => rw [hsp] at ih; cases ih
        | cons x xs => rw [hsp] at ih; exact ih
  rw [← e, hs] at this
  exact (h _ (List.mem_of_mem_tail this)).2 rfl

theorem strip_join (sep : Str) (vs : List Str)
    (h : ∀ v ∈ vs, v ≠ [] ∧ ∀ ch ∈ v, isSpace ch = false) : strip (join sep vs) = join sep vs := by
  have hh : ∀ (vs : List Str), (∀ v ∈ vs, v ≠ [] ∧ ∀ ch ∈ v, isSpace ch = false) →
      ∀ c, (join sep vs).head? = some c → isSpace c = false := by
    intro vs h c hc
    cases vs with
    | nil => simp [join] at hc
    | cons v vs =>
      obtain ⟨h1, h2⟩ := h v (by simp)
      cases v with
      | nil => exact absurd rfl h1
      | cons d ds =>
        have : (join sep ((d :: ds) :: vs)).head? = some d := by
          cases vs <;> simp [join]
        rw [this] at hc; cases hc; exact h2 c (by simp)
  have hl : ∀ (vs : List Str), (∀ v ∈ vs, v ≠ [] ∧ ∀ ch ∈ v, isSpace ch = false) →
      ∀ c, (join sep vs).getLast? = some c → isSpace c = false := by
    intro vs
    induction vs with
    | nil => intro _ c hc; simp [join] at hc
    | cons v vs ih =>
      intro h c hc
      cases vs with
      | nil => exact (h v (by simp)).2 c (List.mem_of_getLast? hc)
      | cons w ws =>
        have hne : join sep (w :: ws) ≠ [] := by
          have := (h w (by simp)).1
          cases w with
          | nil => exact absurd rfl this
          | cons d ds => cases ws <;> simp [join]
        rw [join_cons sep v _ (by simp), List.getLast?_append_of_ne_nil _ hne] at hc
        exact ih (fun u hu => h u (by simp [hu])) c hc
  exact strip_of_clean _ (hh vs h) (hl vs h)

/-- **C27**, values of a line: if there are as many values as labels, and they are separated by
two spaces each, or by one space each, they are found. -/
theorem C27_values (k : Str) (labels vs : List Str) (hk : ' ' ∉ k) (hne : vs ≠ [])
    (hlen : vs.length = labels.length) (h : ∀ v ∈ vs, v ≠ [] ∧ ∀ ch ∈ v, isSpace ch = false) :
    valuesV labels (k ++ ' ' :: join [' ', ' '] vs) = vs ∧
    valuesV labels (k ++ ' ' :: join [' '] vs) = vs := by
  have hs : ∀ v ∈ vs, ' ' ∉ v := fun v hv hc => by
    have := (h v hv).2 _ hc; revert this; decide
  constructor
  · unfold valuesV
    rw [C33_first_space k _ hk, strip_join _ vs h]
    simp only
    rw [splitTwo_join vs hne hs, if_pos hlen.symm]
  · unfold valuesV
    rw [C33_first_space k _ hk, strip_join _ vs h]
    simp only
    split
    · next he =>
      rw [splitTwo_single vs hne (fun v hv => ⟨hs v hv, (h v hv).1⟩)] at he
      match vs, hlen with
      | [v], _ => simpa [join] using splitTwo_clean v (hs v (by simp))
      | [], hlen => exact absurd rfl hne
      | _ :: _ :: _, hlen => rw [he] at hlen; simp at hlen
    · exact splitC_join ' ' vs hne hs

theorem C27_values_nonvacuous :
    valuesV [p!"a", p!"b"] p!"#V0 1.5  open" = [p!"1.5", p!"open"] ∧
    valuesV [p!"a", p!"b"] p!"#V0 1.5 open" = [p!"1.5", p!"open"] := by decide

end S2N.Props
