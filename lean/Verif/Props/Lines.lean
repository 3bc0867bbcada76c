import Verif.Lemmas.Interp
import Verif.Props.Utils
/-
C17, C28, C29, C30: attributes that collect the lines of one kind.
-/
namespace S2N.Props
open S2N S2N.Py S2N.HKey S2N.Spec

theorem fresh_interpreted {x : Obj} (h : Fresh x) : x.interpreted = false := by
  obtain ⟨_, _, _, _, _, _, _, _, _, rfl⟩ := h; rfl

theorem foldl_opt_append {α β : Type} (f : α → β) : ∀ (as : List α) (b : Option (List β)),
    as.foldl (fun b a => some (b.getD [] ++ [f a])) b =
      if as = [] then b else some (b.getD [] ++ as.map f)
  | [], b => by simp
  | a :: as, b => by
    rw [List.foldl_cons, foldl_opt_append f as]
    by_cases h : as = []
    · simp [h]
    · simp [h]

theorem lookup_append_single {α : Type} (k : Str) (ps : List (Str × α)) (p : Str × α) :
    List.lookup k (ps ++ [p]).reverse = if p.1 = k then some p.2 else List.lookup k ps.reverse := by
  rw [List.reverse_append, List.reverse_singleton, List.singleton_append]
  obtain ⟨a, b⟩ := p
  exact Dict.get?_cons a b ps.reverse k

theorem firstOcc_snoc (l : List Str) (k : Str) :
    firstOcc (l ++ [k]) = if k ∈ firstOcc l then firstOcc l else firstOcc l ++ [k] := by
  unfold firstOcc; rw [List.foldl_append]; rfl

theorem lastWins_set {α : Type} {d : Dict α} {ps : List (Str × α)} (h : LastWins d ps) (k : Str) (v : α) :
    LastWins (d.set k v) (ps ++ [(k, v)]) := by
  constructor
  · intro k2
    rw [lookup_append_single, Dict.get?_set, h.value]
  · rw [Dict.keys_set, h.order, List.map_append]
    exact (firstOcc_snoc _ k).symm

theorem lastWins_foldl {α : Type} : ∀ (qs ps : List (Str × α)) (d : Dict α), LastWins d ps →
    LastWins (qs.foldl (fun d kv => d.set kv.1 kv.2) d) (ps ++ qs)
  | [], ps, d, h => by simpa using h
  | q :: qs, ps, d, h => by
    have := lastWins_foldl qs (ps ++ [q]) _ (lastWins_set h q.1 q.2)
    simpa using this

theorem lastWins_nil {α : Type} : LastWins ([] : Dict α) [] := ⟨fun _ => rfl, rfl⟩

section
variable [UniDB] (env : Env) (reg : List HKey) (hr : reg.Perm HKey.all)

include hr

/-- C30: `scan.comments` holds the contents of the `#C` lines, in order. -/
theorem C30_comments (c : ScanCtx) (hf : Fresh c.scan) (hok : (interpretScan env reg c).2 = none) :
    (interpretScan env reg c).1.scan.comments =
      (ofKind .C (scanLines c.scan.raw)).map stripFirstWord := by
  rw [interp_kind env reg hr .C (by simp) (by simp) (·.comments) (fun l b => b ++ [stripFirstWord l])
    _ (fun k t c hk => ps_comments env k t c hk) (pp_comments env) (fun _ _ => rfl) (fun _ _ => rfl) c
    (fresh_interpreted hf) hok, foldl_append_map]
  · obtain ⟨_, _, _, _, _, _, _, _, _, e⟩ := hf
    rw [e]; rfl
  · intro t c _
    simp only [procScan, onScan, procObj, procC, Res.ok, Obj.addH5]
    repeat' split
    all_goals rfl

/-- C30: the same for the user lines `#R`; without such lines the attribute does not exist. -/
theorem C30_R (c : ScanCtx) (hf : Fresh c.scan) (hok : (interpretScan env reg c).2 = none) :
    (interpretScan env reg c).1.scan.R =
      if ofKind .R (scanLines c.scan.raw) = [] then none
      else some ((ofKind .R (scanLines c.scan.raw)).map stripFirstWord) := by
  rw [interp_kind env reg hr .R (by simp) (by simp) (·.R)
    (fun l b => some (b.getD [] ++ [stripFirstWord l]))
    _ (fun k t c hk => ps_R env k t c hk) (pp_R env) (fun _ _ => rfl) (fun _ _ => rfl) c
    (fresh_interpreted hf) hok, foldl_opt_append]
  · obtain ⟨_, _, _, _, _, _, _, _, _, e⟩ := hf
    rw [e]; rfl
  · intro t c _
    simp only [procScan, onScan, procObj, procR, Res.ok, Obj.addH5]
    rw [show strip (stripFirstWord t) = stripFirstWord t from strip_strip _]

/-- C30: the same for the user lines `#U`. -/
theorem C30_U (c : ScanCtx) (hf : Fresh c.scan) (hok : (interpretScan env reg c).2 = none) :
    (interpretScan env reg c).1.scan.U =
      if ofKind .U (scanLines c.scan.raw) = [] then none
      else some ((ofKind .U (scanLines c.scan.raw)).map stripFirstWord) := by
  rw [interp_kind env reg hr .U (by simp) (by simp) (·.U)
    (fun l b => some (b.getD [] ++ [stripFirstWord l]))
    _ (fun k t c hk => ps_U env k t c hk) (pp_U env) (fun _ _ => rfl) (fun _ _ => rfl) c
    (fresh_interpreted hf) hok, foldl_opt_append]
  · obtain ⟨_, _, _, _, _, _, _, _, _, e⟩ := hf
    rw [e]; rfl
  · intro t c _
    simp only [procScan, onScan, procObj, procU, Res.ok, Obj.addH5]
    rw [show strip (stripFirstWord t) = stripFirstWord t from strip_strip _]

/-- C30: `#UIM` lines are kept whole. -/
theorem C30_UIM (c : ScanCtx) (hf : Fresh c.scan) (hok : (interpretScan env reg c).2 = none) :
    (interpretScan env reg c).1.scan.UIM =
      if ofKind .UIM (scanLines c.scan.raw) = [] then none
      else some (ofKind .UIM (scanLines c.scan.raw)) := by
  rw [interp_kind env reg hr .UIM (by simp) (by simp) (·.UIM)
    (fun l b => some (b.getD [] ++ [id l]))
    _ (fun k t c hk => ps_UIM env k t c hk) (pp_UIM env) (fun _ _ => rfl) (fun _ _ => rfl) c
    (fresh_interpreted hf) hok, foldl_opt_append]
  · have h0 : c.scan.UIM = none := by obtain ⟨_, _, _, _, _, _, _, _, _, e⟩ := hf; rw [e]; rfl
    simp [h0]
  · intro t c _; rfl

/-- C30: `#UXML` lines accumulate, without their first word. -/
theorem C30_UXML (c : ScanCtx) (hf : Fresh c.scan) (hok : (interpretScan env reg c).2 = none) :
    (interpretScan env reg c).1.scan.UXML =
      if ofKind .UXML (scanLines c.scan.raw) = [] then none
      else some ((ofKind .UXML (scanLines c.scan.raw)).map stripFirstWord) := by
  rw [interp_kind env reg hr .UXML (by simp) (by simp) (·.UXML)
    (fun l b => some (b.getD [] ++ [stripFirstWord l]))
    _ (fun k t c hk => ps_UXML env k t c hk) (pp_UXML env) (fun _ _ => rfl) (fun _ _ => rfl) c
    (fresh_interpreted hf) hok, foldl_opt_append]
  · obtain ⟨_, _, _, _, _, _, _, _, _, e⟩ := hf
    rw [e]; simp [Obj.newScan]
  · intro t c _; rfl

omit [UniDB] hr in
theorem findS_single (ch : Char) (s : Str) : findS [ch] s = findC ch s := by
  induction s with
  | nil => rfl
  | cons d ds ih =>
    simp only [findS, findC, ih]
    by_cases h : d = ch
    · simp [h]
    · have : ([ch] : Str).isPrefixOf (d :: ds) = false := by simp [List.isPrefixOf]; exact fun e => h e.symm
      simp [h, this]

omit [UniDB] hr in
theorem mdItem_line (n : Nat) (k v : Str) (hne : k ≠ []) (hk : ∀ ch ∈ k, isSpace ch = false ∧ ch ≠ '=') :
    mdItem n (mdLine k v) = .ok (k, strip v) := by
  have e : mdLine k v = (p!"#MD " ++ k ++ [' ']) ++ '=' :: (' ' :: v) := by simp [mdLine]
  have hf : findS ['='] (mdLine k v) = some (k.length + 5) := by
    rw [findS_single, e, findC_append _ _ _ (by
      simp only [List.mem_append, not_or]
      exact ⟨⟨by decide, fun h => (hk _ h).2 rfl⟩, by decide⟩)]
    simp
  unfold mdItem
  rw [hf]
  have hp : k.length + 5 > 5 := by
    have := List.length_pos_iff.2 hne; omega
  simp only [hp, if_true]
  have h1 : splitWs (mdLine k v) = p!"#MD" :: k :: splitWs (p!"= " ++ v) := by
    have e2 : mdLine k v = p!"#MD" ++ ' ' :: (k ++ ' ' :: (p!"= " ++ v)) := by simp [mdLine]
    rw [e2, splitWs_word_append _ _ _ (by decide) (by decide) (by decide),
      splitWs_word_append _ _ _ hne (fun d hd => (hk d hd).1) (by decide)]
  rw [h1]
  simp only [Except.ok.injEq, Prod.mk.injEq, true_and]
  have : (mdLine k v).drop (k.length + 5 + 1) = ' ' :: v := by
    rw [e]
    have hlen : (p!"#MD " ++ k ++ [' ']).length = k.length + 5 := by simp
    rw [List.drop_append, hlen]
    simp
  rw [this]
  simp [strip, lstrip, isSpace]

/-- C30: well-formed `#MD key = value` lines make a dictionary in which the last value of a key
wins. -/
theorem C30_MD (c : ScanCtx) (hf : Fresh c.scan) (hok : (interpretScan env reg c).2 = none)
    (items : List (Str × Str)) (hne : items ≠ [])
    (hk : ∀ kv ∈ items, kv.1 ≠ [] ∧ ∀ ch ∈ kv.1, isSpace ch = false ∧ ch ≠ '=')
    (hl : ofKind .MD (scanLines c.scan.raw) = items.map (fun kv => mdLine kv.1 kv.2)) :
    ∃ d, (interpretScan env reg c).1.scan.MD = some d ∧
      LastWins d (items.map (fun kv => (kv.1, strip kv.2))) := by
  have h := interp_kind env reg hr .MD (by simp) (by simp) (·.MD)
    (fun l b => match mdItem (b.getD []).length l with
      | .ok kv => some ((b.getD []).set kv.1 kv.2)
      | .error _ => b)
    (by
      intro t c hc
      simp only [procScan, onScan, procObj, procMD] at hc ⊢
      cases hm : mdItem (c.scan.MD.getD []).length t with
      | error e => rw [hm] at hc; simp at hc
      | ok kv => simp [Obj.addH5])
    (fun k t c hk => ps_MD env k t c hk) (pp_MD env) (fun _ _ => rfl) (fun _ _ => rfl) c
    (fresh_interpreted hf) hok
  have h0 : c.scan.MD = none := by obtain ⟨_, _, _, _, _, _, _, _, _, e⟩ := hf; rw [e]; rfl
  rw [hl, h0] at h
  have key : ∀ (its : List (Str × Str)) (b : Option (Dict Str)) (ps : List (Str × Str)),
      (∀ kv ∈ its, kv.1 ≠ [] ∧ ∀ ch ∈ kv.1, isSpace ch = false ∧ ch ≠ '=') →
      LastWins (b.getD []) ps → (its = [] → b ≠ none) →
      ∃ d, (its.map (fun kv => mdLine kv.1 kv.2)).foldl (fun b l =>
          match mdItem (b.getD []).length l with
          | .ok kv => some ((b.getD []).set kv.1 kv.2)
          | .error _ => b) b = some d ∧
        LastWins d (ps ++ its.map (fun kv => (kv.1, strip kv.2))) := by
    intro its
    induction its with
    | nil =>
      intro b ps _ hb hn
      cases b with
      | none => exact absurd rfl (hn rfl)
      | some d => exact ⟨d, rfl, by simpa using hb⟩
    | cons kv its ih =>
      intro b ps hk hb _
      simp only [List.map_cons, List.foldl_cons]
      rw [mdItem_line _ _ _ (hk kv (by simp)).1 (hk kv (by simp)).2]
      obtain ⟨d, h1, h2⟩ := ih (some ((b.getD []).set kv.1 (strip kv.2))) (ps ++ [(kv.1, strip kv.2)])
        (fun q hq => hk q (by simp [hq])) (lastWins_set hb _ _) (fun _ => by simp)
      exact ⟨d, h1, by simpa using h2⟩
  obtain ⟨d, h1, h2⟩ := key items none [] hk lastWins_nil (fun h => absurd h hne)
  exact ⟨d, by rw [h, h1], by simpa using h2⟩

/-- C29: `scan.G` maps each `G<n>` to the content of the last `#G<n>` line, keys in the order of
first appearance. -/
theorem C29_G (c : ScanCtx) (hf : Fresh c.scan) (hok : (interpretScan env reg c).2 = none) :
    ∃ d, (interpretScan env reg c).1.scan.G = some d ∧
      LastWins d ((ofKind .G (scanLines c.scan.raw)).map
        (fun l => (lstripC '#' ((splitWs l).headD []), stripFirstWord l))) := by
  have h := interp_kind env reg hr .G (by simp) (by simp) (·.G)
    (fun l b => b.map (fun g => g.set (lstripC '#' ((splitWs l).headD [])) (stripFirstWord l)))
    (by
      intro t c hc
      simp only [procScan, onScan, procObj, procG, firstWord] at hc ⊢
      cases hw : splitWs t with
      | nil => rw [hw] at hc; simp at hc
      | cons w ws =>
        rw [hw] at hc
        simp only [Res.eval_ok] at hc ⊢
        cases hg : c.scan.G with
        | none => rw [hg] at hc; simp at hc
        | some g => simp [Obj.addPost])
    (fun k t c hk => ps_G env k t c hk) (pp_G env) (fun _ _ => rfl) (fun _ _ => rfl) c
    (fresh_interpreted hf) hok
  have h0 : c.scan.G = some [] := by obtain ⟨_, _, _, _, _, _, _, _, _, e⟩ := hf; rw [e]; rfl
  rw [h0] at h
  have key : ∀ (ls : List Str) (d : Dict Str) (ps : List (Str × Str)), LastWins d ps →
      ∃ d', ls.foldl (fun b l => b.map (fun g : Dict Str =>
          g.set (lstripC '#' ((splitWs l).headD [])) (stripFirstWord l))) (some d) = some d' ∧
        LastWins d' (ps ++ ls.map (fun l => (lstripC '#' ((splitWs l).headD []), stripFirstWord l))) := by
    intro ls
    induction ls with
    | nil => intro d ps h; exact ⟨d, rfl, by simpa using h⟩
    | cons l ls ih =>
      intro d ps h
      obtain ⟨d', h1, h2⟩ := ih _ _ (lastWins_set h (lstripC '#' ((splitWs l).headD [])) (stripFirstWord l))
      exact ⟨d', h1, by simpa using h2⟩
  obtain ⟨d, h1, h2⟩ := key (ofKind .G (scanLines c.scan.raw)) [] [] lastWins_nil
  exact ⟨d, by rw [h, h1], by simpa using h2⟩

/-- C17: the non-empty lines that no handler recognises are kept verbatim, in order (a line that
starts with the fallback's own name counts as one); other lines are not. -/
theorem C17_unrecognized (c : ScanCtx) (hf : Fresh c.scan) (hok : (interpretScan env reg c).2 = none) :
    (interpretScan env reg c).1.scan.unrecognized =
      let u := (scanLines c.scan.raw).filter (fun l => isUnknown l || isKind .unrec l)
      if u = [] then none else some u := by
  obtain ⟨c1, c2, e1, e2, e3⟩ := interpret_ok env reg c (fresh_interpreted hf) hok
  rw [e3]
  have h2 := forEach_pres (runPost env) (fun c => c.scan.unrecognized) c1.scan.post.values
    (fun f _ c => pp_unrecognized env f c) c1
  rw [e2] at h2
  show c2.scan.unrecognized = _
  rw [h2]
  have h1 := lines_fold env reg (·.unrecognized)
    (fun k l b => if k = .unrec then some (b.getD [] ++ [id l]) else b)
    (by
      intro k t c _
      by_cases hk : k = .unrec
      · subst hk; rfl
      · simp only [hk, if_false]; exact ps_unrecognized env k t c hk)
    (scanLines c.scan.raw) { c with scan := { c.scan with lazy := false } } (by rw [e1])
  rw [e1] at h1
  simp only at h1
  rw [h1, foldl_filter_eq (fun l => isUnknown l || isKind .unrec l) _
    (fun b l => some (b.getD [] ++ [id l])), foldl_opt_append]
  · obtain ⟨_, _, _, _, _, _, _, _, _, e⟩ := hf
    rw [e]; simp [Obj.newScan]
  · intro l hl b
    have hn := scanLines_no_nl _ l hl
    cases hk : effKey reg l with
    | none =>
      have : (isUnknown l || isKind .unrec l) ≠ true := by
        rw [Ne, ← effKey_unrec reg hr l hn, hk]; simp
      rw [if_neg this]
    | some k =>
      by_cases e : k = .unrec
      · have : (isUnknown l || isKind .unrec l) = true := by
          rw [← effKey_unrec reg hr l hn, hk, e]
        rw [if_pos this]; simp [e]
      · have : (isUnknown l || isKind .unrec l) ≠ true := by
          rw [Ne, ← effKey_unrec reg hr l hn, hk]; simpa using e
        rw [if_neg this]; simp [e]

omit [UniDB] hr in
theorem foldl_last {α β : Type} (f : α → β) : ∀ (as : List α) (b : β),
    as.foldl (fun _ a => f a) b = (as.getLast?.map f).getD b
  | [], b => rfl
  | [a], b => rfl
  | a :: a' :: as, b => by
    rw [List.foldl_cons, foldl_last f (a' :: as), List.getLast?_cons_cons,
      List.getLast?_eq_some_getLast (List.cons_ne_nil a' as)]
    rfl

/-- C28: `scan.T` and `scan.time_name` come from the last `#T` line. -/
theorem C28_T_last (c : ScanCtx) (hf : Fresh c.scan) (hok : (interpretScan env reg c).2 = none)
    (l : Str) (hl : (ofKind .T (scanLines c.scan.raw)).getLast? = some l) :
    (interpretScan env reg c).1.scan.T = some (tmValue l) ∧
    (interpretScan env reg c).1.scan.timeName = some (tmName l) := by
  constructor
  · rw [interp_kind env reg hr .T (by simp) (by simp) (·.T) (fun l _ => some (tmValue l))
      (fun _ _ _ => rfl) (fun k t c hk => ps_T env k t c hk) (pp_T env) (fun _ _ => rfl) (fun _ _ => rfl) c
      (fresh_interpreted hf) hok, foldl_last, hl]
    rfl
  · rw [interp_kind env reg hr .T (by simp) (by simp) (·.timeName) (fun l _ => some (tmName l))
      (fun _ _ _ => rfl) (fun k t c hk => ps_timeName env k t c hk) (pp_timeName env) (fun _ _ => rfl)
      (fun _ _ => rfl) c (fresh_interpreted hf) hok, foldl_last, hl]
    rfl

/-- C28: `scan.M` and `scan.monitor_name` come from the last `#M` line. -/
theorem C28_M_last (c : ScanCtx) (hf : Fresh c.scan) (hok : (interpretScan env reg c).2 = none)
    (l : Str) (hl : (ofKind .M (scanLines c.scan.raw)).getLast? = some l) :
    (interpretScan env reg c).1.scan.M = some (tmValue l) ∧
    (interpretScan env reg c).1.scan.monitorName = some (tmName l) := by
  constructor
  · rw [interp_kind env reg hr .M (by simp) (by simp) (·.M) (fun l _ => some (tmValue l))
      (fun _ _ _ => rfl) (fun k t c hk => ps_M env k t c hk) (pp_M env) (fun _ _ => rfl) (fun _ _ => rfl) c
      (fresh_interpreted hf) hok, foldl_last, hl]
    rfl
  · rw [interp_kind env reg hr .M (by simp) (by simp) (·.monitorName) (fun l _ => some (tmName l))
      (fun _ _ _ => rfl) (fun k t c hk => ps_monitorName env k t c hk) (pp_monitorName env) (fun _ _ => rfl)
      (fun _ _ => rfl) c (fresh_interpreted hf) hok, foldl_last, hl]
    rfl

omit [UniDB] hr in
/-- C28: the value and the name on a line `#T value  (name)`; any white space may follow the
value as long as it starts with a space. -/
theorem C28_line (k v gap name : Str) (hk : ' ' ∉ k) (hne : v ≠ [])
    (hv : ∀ ch ∈ v, isSpace ch = false) (hg : ∀ ch ∈ gap, isSpace ch = true)
    (h1 : ∀ ch, name.head? = some ch → ch ≠ '(') (h2 : ∀ ch, name.getLast? = some ch → ch ≠ ')') :
    tmValue (k ++ ' ' :: (v ++ ' ' :: (gap ++ ['('] ++ name ++ [')']))) = v ∧
    tmName (k ++ ' ' :: (v ++ ' ' :: (gap ++ ['('] ++ name ++ [')']))) = name := by
  have hs : ' ' ∉ v := fun h => by have := hv _ h; revert this; decide
  have e : stripFirstWord (k ++ ' ' :: (v ++ ' ' :: (gap ++ ['('] ++ name ++ [')']))) =
      v ++ ' ' :: (gap ++ ['('] ++ name ++ [')']) := by
    rw [C33_first_space k _ hk]
    apply strip_of_clean
    · intro ch h
      cases v with
      | nil => exact absurd rfl hne
      | cons d ds => simp at h; exact h ▸ hv d (by simp)
    · intro ch h
      have : (v ++ ' ' :: (gap ++ ['('] ++ name ++ [')'])) =
          (v ++ ' ' :: (gap ++ ['('] ++ name)) ++ [')'] := by simp
      rw [this, List.getLast?_concat] at h
      cases h; decide
  have hf : findC ' ' (v ++ ' ' :: (gap ++ ['('] ++ name ++ [')'])) = some v.length := by
    rw [findC_append _ _ _ hs]
  constructor
  · unfold tmValue
    simp only [e, hf, sliceTo]
    simp
  · unfold tmName
    simp only [e, hf, sliceFrom]
    have hd : List.drop v.length (v ++ ' ' :: (gap ++ ['('] ++ name ++ [')'])) =
        ' ' :: (gap ++ ['('] ++ name ++ [')']) := by simp
    rw [hd]
    have hstrip : strip (' ' :: (gap ++ ['('] ++ name ++ [')'])) = '(' :: (name ++ [')']) := by
      have hl : lstrip (' ' :: (gap ++ ['('] ++ name ++ [')'])) = '(' :: (name ++ [')']) := by
        unfold lstrip
        rw [List.dropWhile_cons_of_pos (by decide)]
        have : gap ++ ['('] ++ name ++ [')'] = gap ++ ('(' :: (name ++ [')'])) := by simp
        rw [this, List.dropWhile_append_of_pos (by simpa using hg),
          List.dropWhile_cons_of_neg (by decide)]
      unfold strip
      rw [hl]
      apply rstripP_of_getLast
      intro ch h
      have : '(' :: (name ++ [')']) = ('(' :: name) ++ [')'] := by simp
      rw [this, List.getLast?_concat] at h
      cases h; decide
    rw [hstrip]
    unfold lstripC
    rw [List.dropWhile_cons_of_pos (by decide)]
    by_cases hn : name = []
    · subst hn; decide
    · rw [dropWhile_of_head]
      · unfold rstripP
        rw [List.reverse_append, List.reverse_singleton, List.singleton_append,
          List.dropWhile_cons_of_pos (by decide), dropWhile_of_head, List.reverse_reverse]
        intro ch h
        rw [List.head?_reverse] at h
        simpa using h2 ch h
      · intro ch h
        cases name with
        | nil => exact absurd rfl hn
        | cons d ds =>
          simp only [List.cons_append, List.head?_cons, Option.some.injEq] at h
          have := h1 d (by simp)
          rw [h] at this
          simpa using this

end

/-! A concrete scan that satisfies the hypotheses. -/

/-- an environment for examples -/
def demoEnv : Env where
  fromTimestamp := fun _ => .ok p!"Thu Jan  1 00:00:00 1970"
  mktime := fun _ => .ok (.int 5)
  xmlParse := fun _ => .error .XMLSyntaxError
  xmlValid := fun _ => true

/-- text of a scan -/
def demoRaw : Str :=
  join ['\n'] [p!"#S 1 ascan  th 0 1 2 1", p!"#D Mon Jul 08 13:35:50 2019", p!"#T 1  (Seconds)",
    p!"#M 100  (mon)", p!"#G0 1 2 3", p!"#C first", p!"#ZZ what is this", p!"#R result", p!"#U user",
    p!"#MD a = 1", p!"#MD a = 2", p!"#N 3", p!"#L th  det  det", p!"0 1 2", p!"0.5 3 4", p!"#C second",
    p!"bad line", p!"1 5 6"]

/-- the scan as read -/
def demoScan : ScanCtx :=
  ⟨Obj.newScan p!"f.dat" 0 demoRaw, { Obj.newHeader p!"f.dat" [] with date := p!"x" }⟩

theorem demo_fresh : Fresh demoScan.scan := ⟨_, _, _, _, _, _, _, _, _, rfl⟩

/-- C17, C28-C30 are not vacuous: the scan is interpreted without exception, and has lines of
each kind. -/
theorem C30_nonvacuous :
    (@interpretScan asciiDB demoEnv HKey.all demoScan).2 = none ∧
    (@interpretScan asciiDB demoEnv HKey.all demoScan).1.scan.comments = [p!"first", p!"second"] ∧
    (@interpretScan asciiDB demoEnv HKey.all demoScan).1.scan.MD = some [(p!"a", p!"2")] ∧
    (@interpretScan asciiDB demoEnv HKey.all demoScan).1.scan.R = some [p!"result"] ∧
    @ofKind asciiDB .MD (scanLines demoScan.scan.raw) = [mdLine p!"a" p!"1", mdLine p!"a" p!"2"] := by
  decide +kernel

theorem C17_nonvacuous :
    (@interpretScan asciiDB demoEnv HKey.all demoScan).1.scan.unrecognized =
      some [p!"#ZZ what is this", p!"bad line"] := by
  decide +kernel

theorem C28_nonvacuous :
    (@interpretScan asciiDB demoEnv HKey.all demoScan).1.scan.T = some p!"1" ∧
    (@interpretScan asciiDB demoEnv HKey.all demoScan).1.scan.timeName = some p!"Seconds" ∧
    (@interpretScan asciiDB demoEnv HKey.all demoScan).1.scan.monitorName = some p!"mon" := by
  decide +kernel

theorem C29_nonvacuous :
    (@interpretScan asciiDB demoEnv HKey.all demoScan).1.scan.G = some [(p!"G0", p!"1 2 3")] := by
  decide +kernel

end S2N.Props
