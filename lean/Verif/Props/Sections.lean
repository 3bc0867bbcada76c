import Verif.Spec.File
import Verif.Py.StrLemmas
import Verif.Lemmas.Continue
/-
C01, C02: the sections of a file; recognition of SPEC files.
-/
namespace S2N.Props
open S2N S2N.Py S2N.Spec

theorem isSectionStart_iff (l : Str) : isSectionStart l = true ↔ StartsSection l := by
  unfold isSectionStart StartsSection firstWordIs
  by_cases h : (strip l).length = 0
  · have h' : strip l = [] := List.length_eq_zero_iff.mp h
    have : splitWs l = [] := by rw [← splitWs_strip, h']; rfl
    simp [h, this]
  · rw [if_neg h]
    cases hs : splitWs l with
    | nil => simp
    | cons w ws =>
      simp only [List.head?_cons, Option.some.injEq]
      constructor
      · intro h2
        split at h2
        · simp at h2
        · simpa using h2
      · rintro (rfl | rfl | rfl) <;> decide

/-- positions (from `k`) of the lines that start a section -/
def starts (k : Nat) : List Str → List Nat
  | [] => []
  | l :: ls => if isSectionStart l then k :: starts (k + 1) ls else starts (k + 1) ls

theorem boundaries_eq (ls : List Str) (k : Nat) :
    ((List.range' k ls.length).zip ls).filterMap
      (fun p => if isSectionStart p.2 then some p.1 else none) = starts k ls := by
  induction ls generalizing k with
  | nil => rfl
  | cons l ls ih =>
    simp only [List.length_cons, List.range'_succ, List.zip_cons_cons, List.filterMap_cons, starts]
    by_cases h : isSectionStart l = true
    · simp [h, ih]
    · simp [h, ih]

/-- lines before the first section, and the groups -/
def grp : List Str → List Str × List (List Str)
  | [] => ([], [])
  | l :: ls => if isSectionStart l then ([], (l :: (grp ls).1) :: (grp ls).2)
    else (l :: (grp ls).1, (grp ls).2)

theorem grp_flatten (ls : List Str) : ls = (grp ls).1 ++ (grp ls).2.flatten := by
  induction ls with
  | nil => rfl
  | cons l ls ih =>
    unfold grp
    split <;> simp <;> exact ih

theorem grp_lead (ls : List Str) : ∀ l ∈ (grp ls).1, isSectionStart l = false := by
  induction ls with
  | nil => simp [grp]
  | cons l ls ih =>
    unfold grp
    split
    · simp
    · rename_i h
      intro x hx
      simp only [List.mem_cons] at hx
      rcases hx with rfl | hx
      · simpa using h
      · exact ih _ hx

theorem grp_groups (ls : List Str) : ∀ g ∈ (grp ls).2,
    ∃ first rest, g = first :: rest ∧ isSectionStart first = true ∧
      ∀ l ∈ rest, isSectionStart l = false := by
  induction ls with
  | nil => simp [grp]
  | cons l ls ih =>
    unfold grp
    split
    · rename_i h
      intro x hx
      simp only [List.mem_cons] at hx
      rcases hx with rfl | hx
      · exact ⟨l, _, rfl, h, grp_lead ls⟩
      · exact ih _ hx
    · intro x hx; exact ih _ hx

theorem starts_head (k : Nat) (ls : List Str) :
    (starts k ls ++ [k + ls.length]).head? = some (k + (grp ls).1.length) := by
  induction ls generalizing k with
  | nil => simp [starts, grp]
  | cons l ls ih =>
    unfold starts grp
    split
    · simp
    · have := ih (k + 1)
      simp only [List.length_cons]
      rw [show k + (ls.length + 1) = k + 1 + ls.length by omega, this]
      congr 1; omega

theorem sections_eq (p ls : List Str) :
    ((starts p.length ls).zip (starts p.length ls ++ [p.length + ls.length]).tail).map
      (fun b => ((p ++ ls).take b.2).drop b.1) = (grp ls).2 := by
  induction ls generalizing p with
  | nil => simp [starts, grp]
  | cons l ls ih =>
    have ih' := ih (p ++ [l])
    simp only [List.length_append, List.length_cons, List.length_nil, Nat.zero_add,
      List.append_assoc, List.singleton_append] at ih'
    unfold starts grp
    split
    · have hh := starts_head (p.length + 1) ls
      rw [show p.length + (l :: ls).length = p.length + 1 + ls.length by simp; omega]
      cases hb : (starts (p.length + 1) ls ++ [p.length + 1 + ls.length]) with
      | nil => simp at hb
      | cons b bs =>
        rw [hb] at hh ih'
        simp only [List.head?_cons, Option.some.injEq] at hh
        simp only [List.cons_append, List.tail_cons, hb, List.zip_cons_cons, List.map_cons]
        simp only [List.tail_cons] at ih'
        rw [ih']
        congr 1
        subst hh
        have hg := grp_flatten ls
        have h1 : p ++ l :: ls = (p ++ l :: (grp ls).1) ++ (grp ls).2.flatten := by
          rw [List.append_assoc, List.cons_append, ← hg]
        have h2 : p.length + 1 + (grp ls).1.length = (p ++ l :: (grp ls).1).length := by
          simp; omega
        rw [h1, h2, List.take_left, List.drop_left]
    · rw [show p.length + (l :: ls).length = p.length + 1 + ls.length by simp; omega]
      exact ih'

theorem dissectLines_eq (ls : List Str) : dissectLines ls =
    if (grp ls).2 = [] then .error .NotASpecDataFile else .ok ((grp ls).2.map (join ['\n'])) := by
  unfold dissectLines
  have hb := boundaries_eq ls 0
  rw [← List.range_eq_range'] at hb
  simp only [hb]
  have hs := sections_eq [] ls
  simp only [List.length_nil, Nat.zero_add, List.nil_append] at hs
  have hlen := congrArg List.length hs
  simp only [List.length_map, List.length_zip, List.length_tail, List.length_append,
    List.length_cons, List.length_nil] at hlen
  by_cases h : (grp ls).2 = []
  · rw [h] at hlen
    rw [if_pos h, if_pos (by simpa using hlen)]
  · have : 0 < (grp ls).2.length := List.length_pos_iff.mpr h
    rw [if_neg h, if_neg (by omega), List.dropLast_concat]
    rw [← hs, List.map_map]
    rfl

theorem grp_unique (ls lead : List Str) (groups : List (List Str))
    (h : ls = lead ++ groups.flatten) (hl : ∀ l ∈ lead, isSectionStart l = false)
    (hg : ∀ g ∈ groups, ∃ first rest, g = first :: rest ∧ isSectionStart first = true ∧
      ∀ l ∈ rest, isSectionStart l = false) : grp ls = (lead, groups) := by
  subst h
  induction lead with
  | nil =>
    induction groups with
    | nil => rfl
    | cons g gs ih =>
      obtain ⟨f, r, rfl, h1, h2⟩ := hg g (by simp)
      have ih' := ih (fun g hg' => hg g (by simp [hg']))
      simp only [List.nil_append] at ih'
      have key : ∀ r : List Str, (∀ l ∈ r, isSectionStart l = false) →
          grp (r ++ gs.flatten) = (r, gs) := by
        intro r
        induction r with
        | nil => intro _; simpa using ih'
        | cons a r ihr =>
          intro h
          simp only [List.cons_append, grp, h a (by simp), Bool.false_eq_true, if_false]
          rw [ihr (fun l hl => h l (by simp [hl]))]
      simp only [List.nil_append, List.flatten_cons, List.cons_append, grp, h1, if_true]
      rw [key r h2]
  | cons a lead ih =>
    simp only [List.cons_append, grp, hl a (by simp), Bool.false_eq_true, if_false]
    rw [ih (fun l h => hl l (by simp [h]))]

theorem universal_no_cr (s : Str) : '\r' ∉ universalNewlines s := by
  fun_induction universalNewlines s with
  | case1 => simp
  | case2 cs ih => simp [ih]
  | case3 cs h ih => simp [ih]
  | case4 c cs h1 h2 ih =>
    simp only [List.mem_cons, not_or]
    exact ⟨fun h => h2 h.symm, ih⟩

theorem replace2_absent (a b : Char) (new s : Str) (h : a ∉ s) : replace2 a b new s = s := by
  fun_induction replace2 a b new s with
  | case1 => rfl
  | case2 => rfl
  | case3 c d ds hc ih => simp [hc.1] at h
  | case4 c d ds hc ih => rw [ih (by simp_all)]

theorem replaceC_id (a : Char) (new s : Str) (h : a ∉ s) : replaceC a new s = s := by
  induction s with
  | nil => rfl
  | cons c cs ih =>
    have : c ≠ a := by rintro rfl; simp at h
    simp only [replaceC, this, if_false]
    rw [ih (by simp_all)]

theorem readFile_text (t buf : Str) (h : readFile (.file (some t)) = .ok buf) :
    buf = universalNewlines t := by
  unfold readFile FNode.exists FNode.readText at h
  simp only [if_false, Bool.true_eq_false] at h
  split at h
  · simp at h
  · simp only [Except.ok.injEq] at h
    rw [← h, replace2_absent _ _ _ _ (universal_no_cr t), replaceC_id _ _ _ (universal_no_cr t)]

theorem sectionsOf_grp (ls texts : List Str) :
    SectionsOf ls texts ↔ texts = (grp ls).2.map (join ['\n']) := by
  constructor
  · rintro ⟨lead, groups, h1, h2, h3, rfl⟩
    rw [grp_unique ls lead groups h1 ?_ ?_]
    · intro l hl
      have := h2 l hl
      rw [← isSectionStart_iff] at this
      simpa using this
    · intro g hg
      obtain ⟨f, r, rfl, h4, h5⟩ := h3 g hg
      refine ⟨f, r, rfl, (isSectionStart_iff f).mpr h4, ?_⟩
      intro l hl
      have := h5 l hl
      rw [← isSectionStart_iff] at this
      simpa using this
  · intro h
    refine ⟨(grp ls).1, (grp ls).2, grp_flatten ls, ?_, ?_, h⟩
    · intro l hl
      rw [← isSectionStart_iff, grp_lead ls l hl]; simp
    · intro g hg
      obtain ⟨f, r, rfl, h4, h5⟩ := grp_groups ls g hg
      refine ⟨f, r, rfl, (isSectionStart_iff f).mp h4, ?_⟩
      intro l hl
      rw [← isSectionStart_iff, h5 l hl]; simp

theorem join_flatten (sep : Str) (gs : List (List Str)) (h : ∀ g ∈ gs, g ≠ []) :
    join sep gs.flatten = join sep (gs.map (join sep)) := by
  induction gs with
  | nil => rfl
  | cons g gs ih =>
    have ih' := ih (fun g hg => h g (by simp [hg]))
    have key : ∀ g : List Str, g ≠ [] → gs ≠ [] →
        join sep (g ++ gs.flatten) = join sep g ++ sep ++ join sep gs.flatten := by
      intro g hg hgs
      have hf : gs.flatten ≠ [] := by
        cases gs with
        | nil => exact absurd rfl hgs
        | cons a as =>
          have := h a (by simp)
          simp [this]
      induction g with
      | nil => exact absurd rfl hg
      | cons w ws ihw =>
        cases ws with
        | nil =>
          simp only [List.cons_append, List.nil_append]
          rw [join_cons sep w _ hf]; rfl
        | cons w' ws' =>
          rw [List.cons_append, join_cons sep w _ (by simp), ihw (by simp),
            join_cons sep w (w' :: ws') (by simp)]
          simp [List.append_assoc]
    cases gs with
    | nil => simp [join]
    | cons g' gs' =>
      rw [List.flatten_cons, key g (h g (by simp)) (by simp), ih', List.map_cons (l := g' :: gs'),
        join_cons sep (join sep g) ((g' :: gs').map (join sep)) (by simp)]

/-! ## C01 -/

/-- C01: the sections returned for a file are exactly the groups of its lines that begin with a
line starting a section; only lines before the first such line are left out. -/
theorem C01_partition (t : Str) (texts : List Str)
    (h : dissectFile (.file (some t)) = .ok texts) :
    texts ≠ [] ∧ SectionsOf (fileLines t) texts := by
  unfold dissectFile at h
  cases hr : readFile (.file (some t)) with
  | error e => simp [hr] at h
  | ok buf =>
    rw [hr] at h
    rw [readFile_text t buf hr] at h
    simp only [dissectLines_eq] at h
    split at h
    · simp at h
    · rename_i hne
      simp only [Except.ok.injEq] at h
      refine ⟨?_, (sectionsOf_grp _ _).mpr h.symm⟩
      rw [← h]
      simpa using hne

/-- C01: the sections joined by newlines are the lines of the file joined by newlines, from the
first line that starts a section to the end. -/
theorem C01_nothing_lost (t : Str) (texts : List Str)
    (h : dissectFile (.file (some t)) = .ok texts) :
    ∃ lead rest, fileLines t = lead ++ rest ∧ (∀ l ∈ lead, ¬ StartsSection l) ∧
      (∃ first, rest.head? = some first ∧ StartsSection first) ∧
      join ['\n'] texts = join ['\n'] rest := by
  obtain ⟨hne, lead, groups, h1, h2, h3, rfl⟩ := C01_partition t texts h
  refine ⟨lead, groups.flatten, h1, h2, ?_, ?_⟩
  · cases groups with
    | nil => simp at hne
    | cons g gs =>
      obtain ⟨f, r, rfl, h4, _⟩ := h3 g (by simp)
      exact ⟨f, by simp, h4⟩
  · rw [join_flatten]
    intro g hg
    obtain ⟨f, r, rfl, _⟩ := h3 g hg
    simp

/-- C01: the sections of given lines are unique. -/
theorem C01_unique (lines texts texts' : List Str) (h : SectionsOf lines texts)
    (h' : SectionsOf lines texts') : texts = texts' := by
  rw [sectionsOf_grp] at h h'
  rw [h, h']

theorem grp_none_iff (ls : List Str) : (grp ls).2 = [] ↔ ∀ l ∈ ls, ¬ StartsSection l := by
  constructor
  · intro h l hl
    have := grp_flatten ls
    rw [h] at this
    simp only [List.flatten_nil, List.append_nil] at this
    rw [← isSectionStart_iff, grp_lead ls l (this ▸ hl)]; simp
  · intro h
    cases hg : (grp ls).2 with
    | nil => rfl
    | cons g gs =>
      obtain ⟨f, r, rfl, h4, _⟩ := grp_groups ls g (by rw [hg]; simp)
      exfalso
      apply h f ?_ ((isSectionStart_iff f).mp h4)
      rw [grp_flatten ls, hg]; simp

theorem aux_cons (c : Char) (cs cur : Str) (st : Bool) (hc : c ≠ '\r') :
    splitlinesAux (c :: cs) cur st = if isLineBreak c then cur.reverse :: splitlinesAux cs [] false
      else splitlinesAux cs (c :: cur) true := by
  rw [splitlinesAux]
  intro _ h; exact absurd h hc

theorem aux_mem_left (a cur : Str) (st : Bool) (b : Str) (ha : '\r' ∉ a) :
    ∀ x ∈ splitlinesAux a cur st, x ∈ splitlinesAux (a ++ '\n' :: b) cur st := by
  intro x hx
  induction a generalizing cur st with
  | nil =>
    rw [List.nil_append, splitlinesAux_nl]
    cases st <;> simp [splitlinesAux] at hx
    simp [hx]
  | cons c cs ih =>
    have hc : c ≠ '\r' := by rintro rfl; simp at ha
    have hcs : '\r' ∉ cs := fun h => ha (by simp [h])
    rw [aux_cons c cs cur st hc] at hx
    rw [List.cons_append, aux_cons c _ cur st hc]
    split
    · rename_i h
      rw [if_pos h] at hx
      simp only [List.mem_cons] at hx ⊢
      rcases hx with rfl | hx
      · exact Or.inl rfl
      · exact Or.inr (ih _ _ hcs hx)
    · rename_i h
      rw [if_neg h] at hx
      exact ih _ _ hcs hx

theorem aux_mem_right (a cur : Str) (st : Bool) (b : Str) (ha : '\r' ∉ a) :
    ∀ x ∈ splitlines b, x ∈ splitlinesAux (a ++ '\n' :: b) cur st := by
  intro x hx
  induction a generalizing cur st with
  | nil =>
    rw [List.nil_append, splitlinesAux_nl]
    exact List.mem_cons_of_mem _ hx
  | cons c cs ih =>
    have hc : c ≠ '\r' := by rintro rfl; simp at ha
    have hcs : '\r' ∉ cs := fun h => ha (by simp [h])
    rw [List.cons_append, aux_cons c _ cur st hc]
    split
    · exact List.mem_cons_of_mem _ (ih _ _ hcs)
    · exact ih _ _ hcs

theorem mem_join_lines (ls : List Str) (h : ∀ l ∈ ls, '\r' ∉ l) (l : Str) (hl : l ∈ ls) :
    ∀ x ∈ splitlines l, x ∈ splitlines (join ['\n'] ls) := by
  induction ls with
  | nil => simp at hl
  | cons w ws ih =>
    intro x hx
    have hw := h w (by simp)
    by_cases hws : ws = []
    · subst hws
      simp only [List.mem_singleton] at hl
      subst hl; exact hx
    · rw [join_cons _ w ws hws, List.append_assoc, List.singleton_append]
      simp only [List.mem_cons] at hl
      rcases hl with rfl | hl
      · exact aux_mem_left _ _ _ _ hw x hx
      · exact aux_mem_right _ _ _ _ hw x (ih (fun l hl => h l (by simp [hl])) hl x hx)

theorem mem_of_mem_splitC (c d : Char) (s l : Str) (h : l ∈ splitC c s) (hd : d ∈ l) : d ∈ s := by
  unfold splitC at h
  induction s generalizing l with
  | nil => simp [splitP] at h; simp [h] at hd
  | cons e s ih =>
    unfold splitP at h
    split at h
    · simp only [List.mem_cons] at h ⊢
      rcases h with rfl | h
      · simp at hd
      · exact Or.inr (ih l h hd)
    · cases hs : splitP (· == c) s with
      | nil =>
        rw [hs] at h
        simp only [List.mem_singleton] at h
        subst h
        simp only [List.mem_singleton] at hd
        simp [hd]
      | cons w ws =>
        rw [hs] at h
        simp only [List.mem_cons] at h ⊢
        rcases h with rfl | h
        · simp only [List.mem_cons] at hd
          rcases hd with rfl | hd
          · exact Or.inl rfl
          · exact Or.inr (ih w (by rw [hs]; simp) hd)
        · exact Or.inr (ih l (by rw [hs]; simp [h]) hd)

theorem mem_readlines (s l : Str) (h : l ∈ readlines s) : l ∈ splitC '\n' s := by
  unfold readlines at h
  simp only at h
  split at h
  · exact List.dropLast_subset _ h
  · exact h

theorem lines_of_readline (s l : Str) (hs : '\r' ∉ s) (h : l ∈ readlines s) :
    ∀ x ∈ splitlines l, x ∈ splitlines s := by
  have hm := mem_readlines s l h
  conv => intro x hx; rw [← join_splitC '\n' s]
  exact mem_join_lines _ (fun w hw hr => hs (mem_of_mem_splitC _ _ _ _ hw hr)) l hm

theorem aux_head (a cur : Str) (ha : '\r' ∉ a) :
    ∃ h t, splitlinesAux a cur true = h :: t ∧ startsWith h cur.reverse = true := by
  induction a generalizing cur with
  | nil => exact ⟨cur.reverse, [], rfl, by simp [startsWith]⟩
  | cons c cs ih =>
    have hc : c ≠ '\r' := by rintro rfl; simp at ha
    have hcs : '\r' ∉ cs := fun h => ha (by simp [h])
    rw [aux_cons c cs cur true hc]
    split
    · exact ⟨_, _, rfl, by simp [startsWith]⟩
    · obtain ⟨h, t, e, hp⟩ := ih (c :: cur) hcs
      refine ⟨h, t, e, ?_⟩
      simp only [startsWith, List.reverse_cons, List.isPrefixOf_iff_prefix] at hp ⊢
      exact (List.prefix_append _ _).trans hp

/-- a line (between newlines) that starts with a three character key gives a line (between any
line breaks) that starts with it -/
theorem starts_line (s a : Str) (x y z : Char) (hs : '\r' ∉ s) (h : (x :: y :: z :: a) ∈ readlines s)
    (hk : ∀ c ∈ [x, y, z], c ≠ '\r' ∧ isLineBreak c = false) :
    ∃ l ∈ splitlines s, startsWith l [x, y, z] = true := by
  have hm := mem_readlines s _ h
  have ha : '\r' ∉ a := fun hr => hs (mem_of_mem_splitC _ _ _ _ hm (by simp [hr]))
  obtain ⟨h1, t, e, hp⟩ := aux_head a [z, y, x] ha
  have he : splitlines (x :: y :: z :: a) = h1 :: t := by
    unfold splitlines
    rw [aux_cons x _ _ _ (hk x (by simp)).1, if_neg (by simp [(hk x (by simp)).2]),
      aux_cons y _ _ _ (hk y (by simp)).1, if_neg (by simp [(hk y (by simp)).2]),
      aux_cons z _ _ _ (hk z (by simp)).1, if_neg (by simp [(hk z (by simp)).2]), e]
  refine ⟨h1, lines_of_readline s _ hs h h1 (by rw [he]; simp), hp⟩

theorem starts_word (l : Str) (x y : Char) (hx : isSpace x = false) (hy : isSpace y = false)
    (h : startsWith l [x, y, ' '] = true) : firstWordIs [x, y] l := by
  unfold startsWith at h
  rw [List.isPrefixOf_iff_prefix] at h
  obtain ⟨r, rfl⟩ := h
  unfold firstWordIs splitWs
  have : ∃ ws, splitP isSpace ([x, y, ' '] ++ r) = [x, y] :: ws := by
    refine ⟨splitP isSpace r, ?_⟩
    simp [splitP, hx, hy, show isSpace ' ' = true by decide]
  obtain ⟨ws, e⟩ := this
  rw [e]; rfl

theorem sLine_starts (l : Str) (h : startsWith l p!"#S " = true) : StartsSection l :=
  Or.inr (Or.inr (starts_word l '#' 'S' (by decide) (by decide) h))

theorem fLine_starts (l : Str) (h : startsWith l p!"#F " = true) : StartsSection l :=
  Or.inr (Or.inl (starts_word l '#' 'F' (by decide) (by decide) h))

/-! ## C02 -/

theorem withHeader_iff (t : Str) :
    isSpecFileWithHeader (.file (some t)) = true ↔ FourLineHeader t := by
  unfold isSpecFileWithHeader FNode.exists FNode.isFile FNode.readText FourLineHeader
  simp only [Bool.true_eq_false, or_self, if_false]
  generalize readlines (universalNewlines t) = ls
  constructor
  · intro h
    match ls, h with
    | [], h => simp at h
    | [_], h => simp at h
    | [_, _], h => simp at h
    | [_, _, _], h => simp at h
    | l1 :: l2 :: l3 :: l4 :: rest, h =>
      simp [startsWith, List.isPrefixOf_iff_prefix] at h
      obtain ⟨⟨a, rfl⟩, ⟨b, rfl⟩, ⟨c, rfl⟩, ⟨d, rfl⟩⟩ := h
      exact ⟨a, b, c, d, rest, rfl⟩
  · rintro ⟨a, b, c, d, rest, rfl⟩
    simp [startsWith]

/-- C02: a file has the standard header exactly when its first four lines start with
`#F `, `#E `, `#D `, `#C `. -/
theorem C02_with_header (f : FNode) : isSpecFileWithHeader f = true ↔
    ∃ t, f = .file (some t) ∧ FourLineHeader t := by
  match f with
  | .missing => simp [isSpecFileWithHeader, FNode.exists]
  | .dir => simp [isSpecFileWithHeader, FNode.exists, FNode.isFile]
  | .file none => simp [isSpecFileWithHeader, FNode.exists, FNode.isFile, FNode.readText]
  | .file (some t) => rw [withHeader_iff]; simp

theorem any_starts (ls : List Str) (k : Str) :
    ls.any (fun l => startsWith l k) = true ↔ ∃ a, (k ++ a) ∈ ls := by
  simp only [List.any_eq_true, startsWith, List.isPrefixOf_iff_prefix]
  constructor
  · rintro ⟨l, hl, a, rfl⟩; exact ⟨a, hl⟩
  · rintro ⟨a, h⟩; exact ⟨_, h, a, rfl⟩

/-- C02: a path is a SPEC data file exactly when it is a readable text file with the standard
header or with a line that starts with `#S `. -/
theorem C02_is_spec_file (f : FNode) : isSpecFile f = true ↔
    ∃ t, f = .file (some t) ∧ (FourLineHeader t ∨ HasScanLine t) := by
  unfold isSpecFile
  by_cases hh : isSpecFileWithHeader f = true
  · obtain ⟨t, rfl, h⟩ := (C02_with_header f).mp hh
    rw [if_neg (by simp [FNode.exists, FNode.isFile]), if_pos hh]
    simp [h]
  · match f with
    | .missing => simp [FNode.exists]
    | .dir => simp [FNode.exists, FNode.isFile]
    | .file none => simp [FNode.exists, FNode.isFile, FNode.readText, hh]
    | .file (some t) =>
      rw [if_neg (by simp [FNode.exists, FNode.isFile]), if_neg hh]
      simp only [FNode.readText]
      rw [any_starts]
      rw [withHeader_iff] at hh
      simp [hh, HasScanLine]

section
variable [UniDB]

/-- C02: opening a path that does not exist raises SpecDataFileNotFound. -/
theorem C02_missing (env : Env) (reg : List HKey) (name : Str) (f stat : FileSt)
    (h : f.node = .missing) : Sdf.openFile env reg name f stat = .error .SpecDataFileNotFound := by
  simp [Sdf.openFile, h, FNode.exists]

/-- C02: opening an existing path that is not a SPEC data file raises NotASpecDataFile. -/
theorem C02_not_spec (env : Env) (reg : List HKey) (name : Str) (f stat : FileSt)
    (h : f.node ≠ .missing) (hn : ¬ ∃ t, f.node = .file (some t) ∧ (FourLineHeader t ∨ HasScanLine t)) :
    Sdf.openFile env reg name f stat = .error .NotASpecDataFile := by
  rw [← C02_is_spec_file] at hn
  have : f.node.exists = true := by cases hf : f.node <;> simp_all [FNode.exists]
  simp [Sdf.openFile, this, hn]

end

theorem scanLine_lines (t : Str) (h : HasScanLine t) :
    ∃ l ∈ fileLines t, startsWith l p!"#S " = true := by
  obtain ⟨a, ha⟩ := h
  exact starts_line _ a '#' 'S' ' ' (universal_no_cr t) ha (by decide)

theorem header_lines (t : Str) (h : FourLineHeader t) :
    ∃ l ∈ fileLines t, startsWith l p!"#F " = true := by
  obtain ⟨a, b, c, d, rest, e⟩ := h
  exact starts_line _ a '#' 'F' ' ' (universal_no_cr t) (by rw [e]; simp) (by decide)

open Classical in
theorem readFile_eq (t : Str) : readFile (.file (some t)) =
    if (¬ ∃ l ∈ fileLines t, startsWith l p!"#S " = true) ∧ ¬ FourLineHeader t then
      .error .NotASpecDataFile else .ok (universalNewlines t) := by
  unfold readFile
  simp only [FNode.exists, FNode.readText, Bool.true_eq_false, if_false]
  rw [replace2_absent _ _ _ _ (universal_no_cr t), replaceC_id _ _ _ (universal_no_cr t)]
  have h1 : ((splitlines (universalNewlines t)).any (fun l => startsWith l p!"#S ") = false ↔
      ¬ ∃ l ∈ fileLines t, startsWith l p!"#S " = true) := by
    rw [← List.any_eq_true]; simp [fileLines]
  have h2 : isSpecFileWithHeader (.file (some t)) = false ↔ ¬ FourLineHeader t := by
    rw [← withHeader_iff]; simp
  by_cases h : (¬ ∃ l ∈ fileLines t, startsWith l p!"#S " = true) ∧ ¬ FourLineHeader t
  · rw [if_pos h, if_pos ⟨h1.mpr h.1, h2.mpr h.2⟩]
  · rw [if_neg h, if_neg (fun hh => h ⟨h1.mp hh.1, h2.mp hh.2⟩)]

/-- C01: on a readable text file the only failure is NotASpecDataFile, and it happens exactly when
no line starts with `#S ` and the file has no standard header.  In particular it happens when no
line starts a section. -/
theorem C01_error (t : Str) :
    (∀ e, dissectFile (.file (some t)) = .error e → e = .NotASpecDataFile) ∧
    (dissectFile (.file (some t)) = .error .NotASpecDataFile ↔
      (¬ ∃ l ∈ fileLines t, startsWith l p!"#S " = true) ∧ ¬ FourLineHeader t) ∧
    ((∀ l ∈ fileLines t, ¬ StartsSection l) →
      dissectFile (.file (some t)) = .error .NotASpecDataFile) := by
  have hkey : ¬ ((¬ ∃ l ∈ fileLines t, startsWith l p!"#S " = true) ∧ ¬ FourLineHeader t) →
      ¬ ∀ l ∈ fileLines t, ¬ StartsSection l := by
    intro h hall
    apply h
    constructor
    · rintro ⟨l, hl, hs⟩; exact hall l hl (sLine_starts l hs)
    · intro hh
      obtain ⟨l, hl, hs⟩ := header_lines t hh
      exact hall l hl (fLine_starts l hs)
  unfold dissectFile
  rw [readFile_eq]
  by_cases h : (¬ ∃ l ∈ fileLines t, startsWith l p!"#S " = true) ∧ ¬ FourLineHeader t
  · rw [if_pos h]
    exact ⟨by intro e he; cases he; rfl, iff_of_true rfl h, fun _ => rfl⟩
  · rw [if_neg h]
    have hne := hkey h
    rw [← grp_none_iff] at hne
    simp only [dissectLines_eq, show splitlines (universalNewlines t) = fileLines t from rfl, hne,
      if_false]
    refine ⟨by simp, ?_, ?_⟩
    · simp only [reduceCtorEq, false_iff]; exact h
    · intro hall; exact absurd hall (hkey h)

/-- C02: a file recognised as SPEC data file can always be cut into sections. -/
theorem C02_recognised (f : FNode) (h : isSpecFile f = true) :
    ∃ texts, texts ≠ [] ∧ dissectFile f = .ok texts := by
  obtain ⟨t, rfl, ht⟩ := (C02_is_spec_file f).mp h
  cases hd : dissectFile (.file (some t)) with
  | ok texts => exact ⟨texts, (C01_partition t texts hd).1, rfl⟩
  | error e =>
    exfalso
    have h1 := (C01_error t).1 e hd
    subst h1
    obtain ⟨h2, h3⟩ := (C01_error t).2.1.mp hd
    rcases ht with ht | ht
    · exact h3 ht
    · exact h2 (scanLine_lines t ht)

/-! ## Concrete cases -/

/-- a file with a leading remark, a header and two scans, with all kinds of line ends -/
def demoText : Str :=
  p!"remark
#F demo.dat
#E 1276730676
#D Wed Jun 16 18:24:36 2010
#C demo  User = me

#S 1  ascan  th 1 2 10 1
#D Wed Jun 16 18:25:04 2010
#N 1
#L th
1 
2 

#S 2  ascan  th 1 2 10 1#D Wed Jun 16 18:26:04 2010
"

theorem C01_nonvacuous : dissectFile (.file (some demoText)) = .ok
    [p!"#F demo.dat", p!"#E 1276730676
#D Wed Jun 16 18:24:36 2010
#C demo  User = me
",
     p!"#S 1  ascan  th 1 2 10 1
#D Wed Jun 16 18:25:04 2010
#N 1
#L th
1 
2 
",
     p!"#S 2  ascan  th 1 2 10 1
#D Wed Jun 16 18:26:04 2010"] := by decide +kernel

theorem C02_nonvacuous : isSpecFile (.file (some demoText)) = true ∧
    isSpecFileWithHeader (.file (some demoText)) = false ∧
    isSpecFileWithHeader (.file (some (demoText.drop 7))) = true ∧
    isSpecFile (.file (some p!"#S	1
#F a
")) = false := by decide +kernel

end S2N.Props
