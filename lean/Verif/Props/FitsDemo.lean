import Verif.Props.Fits
/-
A scan which meets the conditions of C92, and scans which show that they are needed.
-/
namespace S2N.Props
open S2N S2N.Py S2N.Spec

/-! ### Conditions which can be evaluated -/

def okE {α : Type} (r : Except PyErr α) : Bool := match r with | .ok _ => true | .error _ => false

theorem okE_iff {α : Type} {r : Except PyErr α} (h : okE r = true) : ∃ a, r = .ok a := by
  cases r with
  | ok a => exact ⟨a, rfl⟩
  | error e => cases h

def finiteB (t : Str) : Bool := match Py.float t with | .ok (.fin _) => true | _ => false

theorem finite_of_b {t : Str} (h : finiteB t = true) : Finite t := by
  unfold finiteB at h
  split at h
  · next q e => exact ⟨q, e⟩
  · cases h

def timeB (env : Env) (e : Num) : Bool := okE e.toIntE && okE (env.fromTimestamp e.toFlt)

theorem time_of_b {env : Env} {e : Num} (h : timeB env e = true) : TimeFits env e := by
  simp only [timeB, Bool.and_eq_true] at h
  exact ⟨okE_iff h.1, okE_iff h.2⟩

def dateB (env : Env) (t : Str) : Bool :=
  t.contains ' ' && match strptimeSpec t with
    | some tm => (match env.mktime tm with | .ok e => timeB env e | .error _ => false)
    | none => false

theorem date_of_b {env : Env} {t : Str} (h : dateB env t = true) : DateFits env t := by
  simp only [dateB, Bool.and_eq_true] at h
  obtain ⟨h1, h2⟩ := h
  cases ht : strptimeSpec t with
  | none => rw [ht] at h2; cases h2
  | some tm =>
    rw [ht] at h2
    cases he : env.mktime tm with
    | error e => simp only [he] at h2; cases h2
    | ok e =>
      simp only [he] at h2
      exact .inr ⟨by simpa using h1, tm, e, ht, he, time_of_b h2⟩

section
variable [UniDB]

def lineB (env : Env) (l : Str) : Bool :=
  (!isKind .D l || dateB env (stripFirstWord l)) && (!isKind .I l || okE (Py.float (stripFirstWord l))) &&
  (!isKind .Q l || (wordsOf l).all (fun w => okE (Py.float w))) &&
  (!isKind .N l || (!(wordsOf l).isEmpty && (wordsOf l).all (fun w => okE (Py.int w)))) &&
  (!isKind .CALIB l || (decide (3 ≤ (wordsOf l).length) && ((wordsOf l).take 3).all (fun w => okE (Py.float w)))) &&
  (!isKind .CHANN l || (decide (3 ≤ (wordsOf l).length) && ((wordsOf l).take 3).all (fun w => okE (Py.int w)) && (wordsOf l).all (fun w => okE (Py.float w)))) &&
  (!isKind .CTIME l || (decide ((wordsOf l).length = 3) && (wordsOf l).all (fun w => okE (Py.float w)))) &&
  !isKind .ROI l && (!isKind .XPCS l || !(wordsOf l).isEmpty) && (!isKind .CCD l || !(wordsOf l).isEmpty) &&
  !isKind .E l && !isKind .O l && !isKind .H l

theorem lineFits_of_b {env : Env} {l : Str} (h : lineB env l = true) : LineFits env l := by
  simp only [lineB, Bool.and_eq_true, Bool.or_eq_true, Bool.not_eq_true', List.all_eq_true, decide_eq_true_eq, List.isEmpty_eq_false_iff] at h
  obtain ⟨⟨⟨⟨⟨⟨⟨⟨⟨⟨⟨⟨h1, h2⟩, h3⟩, h4⟩, h5⟩, h6⟩, h7⟩, h8⟩, h9⟩, h10⟩, h11⟩, h12⟩, h13⟩ := h
  have no : ∀ {k : HKey} {P : Prop}, (isKind k l = false ∨ P) → isKind k l = true → P := by
    intro k P h hk
    rcases h with h | h
    · rw [hk] at h; cases h
    · exact h
  exact {
    date := fun hk => date_of_b (no h1 hk)
    normal := fun hk => okE_iff (no h2 hk)
    hkl := fun hk w hw => okE_iff (no h3 hk w hw)
    columns := fun hk => ⟨(no h4 hk).1, fun w hw => okE_iff ((no h4 hk).2 w hw)⟩
    calib := fun hk => ⟨(no h5 hk).1, fun w hw => okE_iff ((no h5 hk).2 w hw)⟩
    chann := fun hk => ⟨(no h6 hk).1.1, fun w hw => okE_iff ((no h6 hk).1.2 w hw), fun w hw => okE_iff ((no h6 hk).2 w (List.mem_of_getLast? hw))⟩
    ctime := fun hk => ⟨(no h7 hk).1, fun w hw => okE_iff ((no h7 hk).2 w hw)⟩
    roi := fun hk => by rw [hk] at h8; cases h8
    xpcs := fun hk => no h9 hk
    ccd := fun hk => no h10 hk
    noE := h11
    noO := h12
    noH := h13 }

end

/-! ### A scan -/

def fitRaw : Str :=
  join ['\n'] [p!"#S 1 ascan  th 0 1 2 1", p!"#D Mon Jul 08 13:35:50 2019", p!"#T 1  (Seconds)", p!"#G0 1 2 3",
    p!"#G1 5.4 5.4 5.4 90 90 90 1 1 1 90 90 90 1 0 0 0 1 0 10 5 0 0 0 0 10 5 90 0 0 0 1.5 1.5", p!"#Q 0 0 1", p!"#P0 1 2", p!"#V0 a  b",
    p!"#J0 one  two", p!"#j0 c1 c2", p!"#@CALIB 0 1 0", p!"#@CHANN 3 0 2 1", p!"#ZZ unknown", p!"#N 3", p!"#L th  det  det", p!"0 1 2",
    p!"@A 1 2 3", p!"0.5 3 4", p!"what is this"]

def fitHdr : Obj := { Obj.newHeader p!"f.dat" [] with O := some [[p!"th", p!"phi"]], H := some [[p!"x", p!"y"]], comments := [p!"fourc User = me"] }

def fitScan : ScanCtx := ⟨Obj.newScan p!"f.dat" 0 fitRaw, fitHdr⟩

def fitLines : List Str := scanLines fitRaw

theorem fit_lines : fitLines.all (@lineB asciiDB demoEnv) = true := by decide +kernel

theorem fit_kinds : @ofKind asciiDB .G fitLines = [p!"#G0 1 2 3", p!"#G1 5.4 5.4 5.4 90 90 90 1 1 1 90 90 90 1 0 0 0 1 0 10 5 0 0 0 0 10 5 90 0 0 0 1.5 1.5"] ∧
    @ofKind asciiDB .V fitLines = [p!"#V0 a  b"] ∧ @ofKind asciiDB .j fitLines = [p!"#j0 c1 c2"] ∧ @ofKind asciiDB .J fitLines = [p!"#J0 one  two"] ∧
    @ofKind asciiDB .P fitLines = [p!"#P0 1 2"] ∧ @ofKind asciiDB .UXML fitLines = [] ∧
    @dataLinesOf asciiDB fitLines = [p!"0 1 2", p!"@A 1 2 3", p!"0.5 3 4"] := by decide +kernel


def labelsB [UniDB] : Bool → List Str → Bool
  | _, [] => true
  | seen, l :: ls => (!isKind .L l || seen) && labelsB (seen || isKind .N l) ls

theorem labels_of_b [UniDB] : ∀ (lines : List Str) (seen : Bool), labelsB seen lines = true → ∀ pre l post, lines = pre ++ l :: post → isKind .L l = true →
    seen = true ∨ ∃ n ∈ pre, isKind .N n = true
  | [], _, _, pre, l, post, e, _ => by simp at e
  | x :: xs, seen, h, pre, l, post, e, hl => by
    simp only [labelsB, Bool.and_eq_true, Bool.or_eq_true, Bool.not_eq_true'] at h
    cases pre with
    | nil =>
      simp only [List.nil_append, List.cons.injEq] at e
      rcases h.1 with h1 | h1
      · rw [e.1, hl] at h1; cases h1
      · exact .inl h1
    | cons y ys =>
      simp only [List.cons_append, List.cons.injEq] at e
      rcases labels_of_b xs _ h.2 ys l post e.2 hl with h1 | ⟨n, h1, h2⟩
      · rw [Bool.or_eq_true] at h1
        rcases h1 with h1 | h1
        · exact .inl h1
        · exact .inr ⟨y, by simp, by rw [← e.1]; exact h1⟩
      · exact .inr ⟨n, by simp [h1], h2⟩

theorem fit_labels : @labelsB asciiDB false fitLines = true := by decide +kernel

theorem fit_N : @ColumnNumbers asciiDB fitLines [3] := by
  refine ⟨p!"#N 3", ⟨fitLines.take 13, fitLines.drop 14, by decide +kernel, by decide +kernel, by decide +kernel⟩, ?_⟩
  have e : splitWs (stripFirstWord p!"#N 3") = [p!"3"] := by decide +kernel
  rw [e]
  exact .cons (by decide +kernel) .nil

theorem fit_N_before : @ColumnNumbers asciiDB (fitLines.take 14) [3] := by
  refine ⟨p!"#N 3", ⟨fitLines.take 13, [], by decide +kernel, by decide +kernel, by simp⟩, ?_⟩
  have e : splitWs (stripFirstWord p!"#N 3") = [p!"3"] := by decide +kernel
  rw [e]
  exact .cons (by decide +kernel) .nil

theorem fit_L : @StatedLabels asciiDB fitLines [p!"th", p!"det", p!"det"] :=
  .inr ⟨fitLines.take 14, p!"#L th  det  det", fitLines.drop 15, by decide +kernel, by decide +kernel, by decide +kernel,
    .inl ⟨[3], 3, fit_N_before, rfl, by decide +kernel⟩⟩

theorem fit_spectrum : SpectrumOf p!"@A 1 2 3" [.int 1, .int 2, .int 3] := by
  unfold SpectrumOf
  have e : (splitWs p!"@A 1 2 3").tail = [p!"1", p!"2", p!"3"] := by decide +kernel
  have hd : ¬ '.' ∈ p!"@A 1 2 3" := by decide
  rw [e]
  simp only [if_neg hd]
  exact .cons ⟨1, by decide +kernel, rfl⟩ (.cons ⟨2, by decide +kernel, rfl⟩ (.cons ⟨3, by decide +kernel, rfl⟩ .nil))

theorem fit_data : @DataFits asciiDB fitLines := by
  obtain ⟨-, -, -, -, -, -, hd⟩ := fit_kinds
  refine @DataFits.mk asciiDB _ ⟨[3], fit_N, .inl rfl⟩ ?_ ?_ ?_ ?_
  · intro nm h h2
    rw [@columnNumbers_unique asciiDB _ _ _ h fit_N] at h2
    simp at h2
  · intro nm ls L h1 h2 h3
    rw [@columnNumbers_unique asciiDB _ _ _ h1 fit_N] at h2
    rw [@statedLabels_unique asciiDB _ _ _ h3 fit_L]
    have e : ls = _ := h2
    rw [e, hd]
    decide +kernel
  · intro L h
    rw [@statedLabels_unique asciiDB _ _ _ h fit_L]
    exact ⟨by decide, by intro l e; simp at e, fun _ => by decide⟩
  · rw [hd]
    intro l hl hm
    simp only [List.mem_cons, List.not_mem_nil, or_false] at hl
    rcases hl with rfl | rfl | rfl
    · exact absurd hm (by decide)
    · exact ⟨_, fit_spectrum⟩
    · exact absurd hm (by decide)

theorem fit_fits : @ScanFits asciiDB demoEnv fitScan.hdr fitScan.scan := by
  obtain ⟨kG, kV, kj, kJ, kP, kU, kd⟩ := fit_kinds
  have el : scanLines fitScan.scan.raw = fitLines := rfl
  refine @ScanFits.mk asciiDB _ _ _ ?_ ?_ ?_ ?_ ?_ ?_ ?_ ?_ ?_ <;> rw [el]
  · intro l hl
    exact @lineFits_of_b asciiDB _ _ (List.all_eq_true.1 fit_lines l hl)
  · intro pre l post e hl
    rcases @labels_of_b asciiDB fitLines false fit_labels pre l post e hl with h | h
    · cases h
    · exact h
  · intro _
    exact ⟨fun e h => (nomatch h), Or.inl (by decide)⟩
  · rw [kV]
    intro i l hi
    cases i with
    | zero =>
      cases hi
      exact ⟨[[p!"x", p!"y"]], [p!"x", p!"y"], rfl, rfl, .inl (by decide +kernel)⟩
    | succ i => simp at hi
  · rw [kj, kJ]
    intro _ i l hi
    cases i with
    | zero => cases hi; exact ⟨_, rfl, by decide +kernel⟩
    | succ i => simp at hi
  · rw [kP]
    intro i l O names hi hO hn
    cases hO
    cases i with
    | succ i => simp at hi
    | zero =>
      cases hi; cases hn
      intro w hw
      have e : (wordsOf p!"#P0 1 2").take [p!"th", p!"phi"].length = [p!"1", p!"2"] := by decide +kernel
      rw [e] at hw
      simp only [List.mem_cons, List.not_mem_nil, or_false] at hw
      rcases hw with rfl | rfl <;> exact okE_iff (by decide +kernel)
  · intro _
    refine @GeometryFits.mk asciiDB _ _ ?_ ?_ ?_
    · rw [kG]
      have h : ([p!"#G0 1 2 3", p!"#G1 5.4 5.4 5.4 90 90 90 1 1 1 90 90 90 1 0 0 0 1 0 10 5 0 0 0 0 10 5 90 0 0 0 1.5 1.5"].all
        (fun l => (wordsOf l).all finiteB)) = true := by decide +kernel
      intro l hl w hw
      exact finite_of_b (List.all_eq_true.1 (List.all_eq_true.1 h l hl) w hw)
    · rw [kG]
      intro l hl hg
      refine .inr (.inl ?_)
      revert l hl hg
      decide +kernel
    · intro c g u x y hc he
      cases hc
      have e : splitWs p!"fourc User = me" = [p!"fourc", p!"User", p!"=", p!"me"] := by decide +kernel
      rw [e] at he
      cases he
      decide
  · intro _; exact fit_data
  · rw [kU]; intro h; exact absurd rfl h

theorem C92_nonvacuous : @ScanFits asciiDB demoEnv fitScan.hdr fitScan.scan ∧ Fresh fitScan.scan ∧
    (@interpretScan asciiDB demoEnv HKey.all fitScan).2 = none ∧
    (@interpretScan asciiDB demoEnv HKey.all fitScan).1.scan.diff.map (·.full) ≠ none ∧
    (@interpretScan asciiDB demoEnv HKey.all fitScan).1.scan.data.keys = [p!"th", p!"det", p!"det_1", p!"_mca_"] :=
  ⟨fit_fits, ⟨_, _, _, _, _, _, _, _, _, rfl⟩, @C92_interprets asciiDB demoEnv HKey.all (List.Perm.refl _) fitScan fit_fits ⟨_, _, _, _, _, _, _, _, _, rfl⟩,
    by decide +kernel, by decide +kernel⟩

/-! ### The conditions are needed -/

/-- a scan of these lines, with the header `h` -/
def badScan (h : Obj) (ls : List Str) : ScanCtx := ⟨Obj.newScan p!"f.dat" 0 (join ['\n'] (p!"#S 1 ascan" :: ls)), h⟩

theorem C92_needed :
    (@interpretScan asciiDB demoEnv HKey.all (badScan fitHdr [p!"#N 1 2 3", p!"#L a  b", p!"1 2"])).2 = some .ValueError ∧
    (@interpretScan asciiDB demoEnv HKey.all (badScan fitHdr [p!"#N 2", p!"#L a  b", p!"1 2 3"])).2 = some .IndexError ∧
    (@interpretScan asciiDB demoEnv HKey.all (badScan fitHdr [p!"#L a  b", p!"1 2"])).2 = some .TypeError ∧
    (@interpretScan asciiDB demoEnv HKey.all (badScan fitHdr [p!"#N 2", p!"#L a  b", p!"@A 1 x"])).2 = some .ValueError ∧
    (@interpretScan asciiDB demoEnv HKey.all (badScan fitHdr [p!"#N 2", p!"#L a  _mca_", p!"@A 1 2", p!"3 4"])).2 = some .AttributeError ∧
    (@interpretScan asciiDB demoEnv HKey.all (badScan fitHdr [p!"#V0 a  b", p!"#V1 c  d"])).2 = some .IndexError ∧
    (@interpretScan asciiDB demoEnv HKey.all (badScan fitHdr [p!"#J0 one", p!"#j0 a b"])).2 = some .IndexError ∧
    (@interpretScan asciiDB demoEnv HKey.all (badScan fitHdr [p!"#P0 1 x"])).2 = some .ValueError ∧
    (@interpretScan asciiDB demoEnv HKey.all (badScan fitHdr [p!"#G1 1 2 3"])).2 = some .KeyError ∧
    (@interpretScan asciiDB demoEnv HKey.all (badScan fitHdr [p!"#Q 1 x"])).2 = some .ValueError := by
  decide +kernel

end S2N.Props
