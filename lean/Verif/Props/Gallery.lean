import Verif.Spec.Gallery
import Verif.Props.Cli
import Verif.Props.Iso
import Verif.Props.ScanList
/-
Properties C50, C52, C53: the cache of file times, the names of plots and directories
-/
namespace S2N.Props
open S2N Py Spec Gallery

/-! ### C52: names of plots -/

theorem replaceC_none {c : Char} {t : Str} : ∀ {s : Str}, c ∉ s → replaceC c t s = s
  | [], _ => rfl
  | d :: ds, h => by
    simp only [List.mem_cons, not_or] at h
    simp only [replaceC, if_neg (Ne.symm h.1), replaceC_none h.2]

theorem replaceC_replicate (n : Nat) : replaceC ' ' ['0'] (List.replicate n ' ') = List.replicate n '0' := by
  induction n with
  | zero => rfl
  | succ n ih => simp only [List.replicate_succ, replaceC, if_true, ih, List.cons_append, List.nil_append]

/-- **C52**: the plot of a scan is the file "s", its name with zeros in front up to five characters, ".svg" -/
theorem C52_name (n : Str) (h : ' ' ∉ n) :
    plotName n = p!"s" ++ List.replicate (5 - n.length) '0' ++ n ++ p!".svg" := by
  unfold plotName
  rw [show ('s' :: (List.replicate (5 - n.length) ' ' ++ n) ++ plotType) =
    ['s'] ++ (List.replicate (5 - n.length) ' ' ++ (n ++ plotType)) by simp]
  rw [replaceC_append, replaceC_append, replaceC_append, replaceC_replicate, replaceC_none h,
    replaceC_none (s := ['s']) (by decide), replaceC_none (s := plotType) (by decide)]
  simp [plotType]

/-- without zeros in front -/
theorem zeros_drop (k : Nat) (n : Str) : (List.replicate k '0' ++ n).dropWhile (· == '0') = n.dropWhile (· == '0') := by
  induction k with
  | zero => rfl
  | succ k ih => simp only [List.replicate_succ, List.cons_append, List.dropWhile_cons, beq_self_eq_true, if_true, ih]

theorem zeros_split (n : Str) : ∃ k, n = List.replicate k '0' ++ n.dropWhile (· == '0') := by
  induction n with
  | nil => exact ⟨0, rfl⟩
  | cons c t ih =>
    by_cases h : c = '0'
    · subst h
      obtain ⟨k, hk⟩ := ih
      refine ⟨k + 1, ?_⟩
      simp only [List.replicate_succ, List.cons_append, List.dropWhile_cons, beq_self_eq_true, if_true]
      rw [← hk]
    · exact ⟨0, by simp [h]⟩

/-- **C52**: two names without spaces have the same plot file exactly if they are equal, or if both have
at most five characters and differ only in the number of zeros in front. -/
theorem C52_same_plot (m n : Str) (hm : ' ' ∉ m) (hn : ' ' ∉ n) :
    plotName m = plotName n ↔
      m = n ∨ (m.length ≤ 5 ∧ n.length ≤ 5 ∧ m.dropWhile (· == '0') = n.dropWhile (· == '0')) := by
  rw [C52_name m hm, C52_name n hn]
  simp only [List.append_assoc, List.append_cancel_left_eq]
  rw [← List.append_assoc, ← List.append_assoc, List.append_cancel_right_eq]
  constructor
  · intro h
    have hl := congrArg List.length h
    simp only [List.length_append, List.length_replicate] at hl
    by_cases hm5 : m.length ≤ 5
    · right
      refine ⟨hm5, by omega, ?_⟩
      have := congrArg (List.dropWhile (· == '0')) h
      rwa [zeros_drop, zeros_drop] at this
    · left
      have e1 : 5 - m.length = 0 := by omega
      have e2 : 5 - n.length = 0 := by omega
      simpa [e1, e2] using h
  · rintro (rfl | ⟨h1, h2, h3⟩)
    · rfl
    · obtain ⟨j, hj⟩ := zeros_split m
      obtain ⟨k, hk⟩ := zeros_split n
      have lm := congrArg List.length hj
      have ln := congrArg List.length hk
      simp only [List.length_append, List.length_replicate] at lm ln
      rw [hj, hk, h3, ← List.append_assoc, ← List.append_assoc, ← List.replicate_add, ← List.replicate_add]
      congr 2
      simp only [List.length_append, List.length_replicate]
      rw [h3] at lm
      omega

theorem _root_.S2N.Spec.PlainName.drop {n : Str} (h : PlainName n) :
    (n = n.dropWhile (· == '0') ∧ n.head? ≠ some '0') ∨
    (n = '0' :: n.dropWhile (· == '0') ∧ ∀ c, (n.dropWhile (· == '0')).head? = some c → c = '.') := by
  match n, h with
  | [], h => exact absurd rfl h.ne
  | c :: t, h =>
    by_cases hc : c = '0'
    · subst hc
      right
      match t, h with
      | [], _ => exact ⟨rfl, by simp⟩
      | d :: t, h =>
        have := h.noZero d t rfl
        subst this
        exact ⟨rfl, by simp⟩
    · left
      constructor
      · simp [hc]
      · simp [hc]

/-- **C52**: different scans with plain names have different plot files. -/
theorem C52_distinct (m n : Str) (hm : PlainName m) (hn : PlainName n) (h : m ≠ n) : plotName m ≠ plotName n := by
  intro e
  rcases (C52_same_plot m n hm.noSpace hn.noSpace).1 e with e | ⟨-, -, e⟩
  · exact h e
  · have key : ∀ {a b : Str}, PlainName a → PlainName b → a.dropWhile (· == '0') = b.dropWhile (· == '0') →
        a = '0' :: a.dropWhile (· == '0') → (∀ c, (a.dropWhile (· == '0')).head? = some c → c = '.') →
        b = b.dropWhile (· == '0') → False := by
      intro a b ha hb e h1 h2 h3
      rw [e, ← h3] at h2
      match b, hb, h2 with
      | [], hb, _ => exact hb.ne rfl
      | c :: t, hb, h2 => exact hb.noDot (by simp [h2 c rfl])
    rcases hm.drop with ⟨m1, m2⟩ | ⟨m1, m2⟩ <;> rcases hn.drop with ⟨n1, n2⟩ | ⟨n1, n2⟩
    · exact h (by rw [m1, n1, e])
    · exact key hn hm e.symm n1 n2 m1
    · exact key hm hn e m1 m2 n1
    · exact h (by rw [m1, n1, e])

theorem C52_nonvacuous : PlainName p!"12" ∧ PlainName p!"0" ∧ PlainName p!"12.1" ∧ PlainName p!"123456" ∧
    plotName p!"12" = p!"s00012.svg" ∧ plotName p!"12.1" = p!"s012.1.svg" := by
  refine ⟨⟨by decide, by decide, by decide, by decide, ?_⟩, ⟨by decide, by decide, by decide, by decide, ?_⟩,
    ⟨by decide, by decide, by decide, by decide, ?_⟩, ⟨by decide, by decide, by decide, by decide, ?_⟩, by decide, by decide⟩ <;>
    · intro c t e; simp at e

/-- names which are not plain collide: `#S 01` and `#S 1` -/
theorem C52_collision : plotName p!"01" = plotName p!"1" := by decide

/-! ### C53: the directory of a file -/

theorem rfindC_none {c : Char} {s : Str} (h : c ∉ s) : rfindC c s = none := by
  unfold rfindC
  rw [(findC_eq_none_iff c s.reverse).2 (by simpa using h)]
  rfl

theorem baseName_eq (dir name : Str) (hd : dir = [] ∨ dir.getLast? = some '/') (hn : '/' ∉ name) :
    baseName (dir ++ name) = name := by
  unfold baseName nameStart
  rcases hd with rfl | hd
  · simp only [List.nil_append]
    rw [rfindC_none hn]
    rfl
  · obtain ⟨d, rfl⟩ : ∃ d, dir = d ++ ['/'] := by
      obtain ⟨h, e⟩ := List.getLast?_eq_some_iff.1 hd
      exact ⟨h, e⟩
    rw [show d ++ ['/'] ++ name = d ++ '/' :: name by simp, rfindC_last _ _ _ hn]
    simp only
    rw [show d ++ '/' :: name = (d ++ ['/']) ++ name by simp]
    exact List.drop_left' (by simp)

theorem splitext_eq (root ext : Str) (hr : '/' ∉ root) (hc : ∃ c ∈ root, c ≠ '.') (he : '.' ∉ ext ∧ '/' ∉ ext) :
    splitext (root ++ '.' :: ext) = (root, '.' :: ext) := by
  unfold splitext nameStart
  rw [rfindC_last _ _ _ he.1, rfindC_none (by
    simp only [List.mem_append, List.mem_cons, not_or]; exact ⟨hr, by decide, he.2⟩)]
  simp only [List.take_left, List.drop_left, List.drop_zero]
  rw [if_pos]
  refine ⟨by omega, ?_⟩
  obtain ⟨c, h1, h2⟩ := hc
  rw [List.any_eq_true]
  exact ⟨c, h1, by simpa using h2⟩

theorem splitext_none (root : Str) (hr : '.' ∉ root) : splitext root = (root, []) := by
  unfold splitext
  rw [rfindC_none hr]

theorem getSpecFileDate_ok (content date : Str) (h : Dated content date) (hd : ∀ c, date.head? = some c → isSpace c = false)
    (hl : ∀ c, date.getLast? = some c → isSpace c = false) :
    getSpecFileDate (.file (some content)) = .ok (some date) := by
  obtain ⟨a, b, sp, rest, hs, e⟩ := h
  unfold getSpecFileDate
  simp only [FNode.exists, FNode.readText, Except.map, e, Bool.true_eq_false, if_false]
  have : strip ((p!"#D " ++ date ++ sp).drop 2) = date := by
    rw [show (p!"#D " ++ date ++ sp).drop 2 = ' ' :: (date ++ sp) by rfl]
    unfold strip
    have e1 : lstrip (' ' :: (date ++ sp)) = lstrip (date ++ sp) := by
      unfold lstrip; rw [List.dropWhile_cons, if_pos (by decide)]
    rw [e1]
    match date, hd, hl with
    | [], _, _ =>
      have : lstrip ([] ++ sp) = [] := by
        unfold lstrip
        rw [List.nil_append]
        have := List.dropWhile_append_of_pos (l₂ := []) hs
        simpa using this
      rw [this]; rfl
    | c :: t, hd, hl =>
      have : lstrip (c :: t ++ sp) = c :: t ++ sp := dropWhile_of_head _ _ (by simpa using hd)
      rw [this]
      unfold rstrip rstripP
      rw [List.reverse_append, List.dropWhile_append_of_pos (by simpa using hs)]
      have := rstripP_of_getLast isSpace (c :: t) hl
      unfold rstripP at this
      exact this
  rw [this]
  simp [startsWith]


theorem pathJoin_rel (a b : Str) (ha : a ≠ []) (hl : a.getLast? ≠ some '/') (hb : b.head? ≠ some '/') :
    pathJoin a b = a ++ '/' :: b := by
  unfold pathJoin
  rw [if_neg, if_neg]
  · rintro (h | h)
    · exact ha h
    · apply hl
      unfold endsWith at h
      obtain ⟨t, rfl⟩ := List.isSuffixOf_iff_suffix.1 h
      simp
  · intro h
    unfold startsWith at h
    obtain ⟨t, rfl⟩ := List.isPrefixOf_iff_prefix.1 h
    simp at hb

theorem four_eq_dddd (n : Nat) (h : n < 10000) : four n = dddd n := by
  unfold four
  rw [two_eq_dd _ (by omega), two_eq_dd _ (by omega)]
  have e1 : n / 100 / 10 = n / 1000 := by omega
  have e2 : n % 100 / 10 = n / 10 % 10 := by omega
  have e3 : n % 100 % 10 = n % 10 := by omega
  simp only [dd, dddd, List.cons_append, List.nil_append, e1, e2, e3]

theorem specDate_ends (wd y mo d h mi s : Nat) (hw : wd < 7) (hy : y < 10000) :
    (∀ c, (specDate wd y mo d h mi s).head? = some c → isSpace c = false) ∧
    (∀ c, (specDate wd y mo d h mi s).getLast? = some c → isSpace c = false) := by
  constructor
  · intro c hc
    unfold specDate at hc
    interval_cases wd <;> (simp [Days] at hc; subst hc; rfl)
  · intro c hc
    unfold specDate at hc
    rw [List.getLast?_append_of_ne_nil _ (by simp [dddd])] at hc
    have := List.mem_of_getLast? hc
    exact isDig_not_space (dddd_digits y hy c this)

theorem datePath_ok (wd y mo d h mi s : Nat) (hw : wd < 7) (hy : 1 ≤ y ∧ y < 10000) (v : ValidTime y mo d h mi s) :
    datePath (specDate wd y mo d h mi s) = .ok (dddd y ++ p!"/" ++ dd mo) := by
  unfold datePath Sdf.strptime
  rw [strptimeSpec_specDate wd y mo d h mi s hw hy v]
  simp only [Except.map]
  rw [four_eq_dddd y hy.2, two_eq_dd mo (by have := v.month; omega), pathJoin_rel]
  · simp
  · simp [dddd]
  · intro e
    have := dddd_digits y hy.2 _ (List.mem_of_getLast? e)
    simp [isDig] at this
  · intro e
    have := dd_digits mo (by have := v.month; omega) _ (List.mem_of_head? e)
    simp [isDig] at this

theorem galleryDir_join (base root : Str) (y mo : Nat) (hy : y < 10000) (hmo : 1 ≤ mo ∧ mo ≤ 12)
    (hbase : base ≠ [] ∧ base.getLast? ≠ some '/') (hroot : '/' ∉ root) :
    Except.ok (some (pathJoin (pathJoin base (dddd y ++ p!"/" ++ dd mo)) root)) =
      (.ok (some (galleryDir base y mo root)) : Except PyErr (Option Str)) := by
  rw [pathJoin_rel base _ hbase.1 hbase.2, pathJoin_rel]
  · unfold galleryDir
    simp
  · simp
  · intro e
    rw [List.getLast?_append_of_ne_nil _ (by simp), List.getLast?_cons_of_ne_nil (by simp [dddd]),
      List.getLast?_append_of_ne_nil _ (by simp [dd])] at e
    have := dd_digits mo (by omega) _ (List.mem_of_getLast? e)
    simp [isDig] at this
  · intro e
    exact hroot (List.mem_of_head? e)
  · intro e
    simp only [dddd, List.cons_append, List.head?_cons, Option.some.injEq] at e
    have := dddd_digits y hy (Nat.digitChar (y / 1000)) (by simp [dddd])
    rw [e] at this
    simp [isDig] at this

/-- **C53**: the plots of a file are kept in base/YYYY/MM/root, from the date on the third line of the file
and the name of the file without directory and extension, for every date. -/
theorem C53_directory (base dir root ext content : Str) (wd y mo d h mi s : Nat) (hw : wd < 7)
    (hy : 1 ≤ y ∧ y < 10000) (v : ValidTime y mo d h mi s) (hc : Dated content (specDate wd y mo d h mi s))
    (hbase : base ≠ [] ∧ base.getLast? ≠ some '/') (hdir : dir = [] ∨ dir.getLast? = some '/') (hroot : '/' ∉ root)
    (hname : ∃ c ∈ root, c ≠ '.') (hext : '.' ∉ ext ∧ '/' ∉ ext) :
    getPlotDir base (dir ++ root ++ p!"." ++ ext) (.file (some content)) = .ok (some (galleryDir base y mo root)) := by
  obtain ⟨e1, e2⟩ := specDate_ends wd y mo d h mi s hw hy.2
  unfold getPlotDir
  rw [getSpecFileDate_ok _ _ hc e1 e2]
  simp only [datePath_ok wd y mo d h mi s hw hy v]
  have hmo := v.month
  rw [show dir ++ root ++ p!"." ++ ext = dir ++ (root ++ '.' :: ext) by simp, baseName_eq dir _ hdir (by
    simp only [List.mem_append, List.mem_cons, not_or]; exact ⟨hroot, by decide, hext.2⟩), splitext_eq _ _ hroot hname hext]
  exact galleryDir_join base root y mo hy.2 ⟨hmo.1, hmo.2⟩ hbase hroot

/-- **C53**: the same for a file name without extension. -/
theorem C53_no_extension (base dir root content : Str) (wd y mo d h mi s : Nat) (hw : wd < 7)
    (hy : 1 ≤ y ∧ y < 10000) (v : ValidTime y mo d h mi s) (hc : Dated content (specDate wd y mo d h mi s))
    (hbase : base ≠ [] ∧ base.getLast? ≠ some '/') (hdir : dir = [] ∨ dir.getLast? = some '/') (hroot : '/' ∉ root)
    (hdot : '.' ∉ root) :
    getPlotDir base (dir ++ root) (.file (some content)) = .ok (some (galleryDir base y mo root)) := by
  obtain ⟨e1, e2⟩ := specDate_ends wd y mo d h mi s hw hy.2
  unfold getPlotDir
  rw [getSpecFileDate_ok _ _ hc e1 e2]
  simp only [datePath_ok wd y mo d h mi s hw hy v]
  have hmo := v.month
  rw [baseName_eq dir _ hdir hroot, splitext_none _ hdot]
  exact galleryDir_join base root y mo hy.2 ⟨hmo.1, hmo.2⟩ hbase hroot

/-- **C53**: a file which does not begin with lines #F, #E and #D has no gallery directory. -/
theorem C53_no_directory (base name content : Str) (h : ¬ Begins content) :
    getPlotDir base name (.file (some content)) = .ok none := by
  have : getSpecFileDate (.file (some content)) = .ok none := by
    unfold getSpecFileDate
    simp only [FNode.exists, FNode.readText, Except.map, Bool.true_eq_false, if_false]
    split
    · next l1 l2 l3 r e =>
      rw [if_neg]
      intro hp
      simp only [Bool.and_eq_true, startsWith, List.isPrefixOf_iff_prefix] at hp
      obtain ⟨⟨⟨a, e1⟩, ⟨b, e2⟩⟩, ⟨c, e3⟩⟩ := hp
      exact h ⟨a, b, c, r, by rw [e, ← e1, ← e2, ← e3]⟩
    · rfl
  unfold getPlotDir
  rw [this]

/-! ### C50: the cache of file times -/

theorem readCache_holds {cfg : Cfg} {d : Disk} {fname : Str} {m z : Int} (h : Holds cfg d fname m z) :
    ∃ c, readCache cfg d = .ok c ∧ cacheGet c fname = (m, z) := by
  unfold readCache cacheGet
  rcases h with ⟨h, rfl, rfl⟩ | ⟨c, h, hc | ⟨hc, rfl, rfl⟩⟩
  · exact ⟨[], by rw [h], rfl⟩
  · exact ⟨c, by rw [h], by rw [hc]; rfl⟩
  · exact ⟨c, by rw [h], by rw [hc]; rfl⟩

theorem holds_of_read {cfg : Cfg} {d : Disk} {c : Dict (Int × Int)} (fname : Str) (h : readCache cfg d = .ok c) :
    Holds cfg d fname (cacheGet c fname).1 (cacheGet c fname).2 := by
  unfold readCache at h
  unfold cacheGet
  split at h
  · next e => cases h; exact .inl ⟨e, rfl, rfl⟩
  · next c' e =>
    cases h
    refine .inr ⟨_, e, ?_⟩
    cases hc : c.get? fname with
    | none => exact .inr ⟨rfl, rfl, rfl⟩
    | some v => exact .inl rfl
  · simp at h

/-- **C50**: was_file_updated is True exactly if the time and the size of the file are both different
from those in the cache.  Then the cache holds the new ones, everything else in it and in the gallery is
kept.  Otherwise nothing is changed. -/
theorem C50_updated (cfg : Cfg) (fname : Str) (s : GS) (m z : Int) (h : Holds cfg s.disk fname m z) :
    (wasFileUpdated cfg fname s).2 = .ok (decide ((cfg.files fname).mtime ≠ m ∧ (cfg.files fname).size ≠ z)) ∧
    ((cfg.files fname).mtime ≠ m ∧ (cfg.files fname).size ≠ z →
      Holds cfg (wasFileUpdated cfg fname s).1.disk fname (cfg.files fname).mtime (cfg.files fname).size ∧
      (∀ other m' z', other ≠ fname → Holds cfg s.disk other m' z' →
        Holds cfg (wasFileUpdated cfg fname s).1.disk other m' z') ∧
      SameBut (cachePath cfg) s.disk (wasFileUpdated cfg fname s).1.disk) ∧
    (¬ ((cfg.files fname).mtime ≠ m ∧ (cfg.files fname).size ≠ z) → (wasFileUpdated cfg fname s).1 = s) := by
  obtain ⟨c, hc, hg⟩ := readCache_holds h
  unfold wasFileUpdated
  rw [hc]
  simp only [hg]
  by_cases hu : (cfg.files fname).mtime ≠ m ∧ (cfg.files fname).size ≠ z
  · rw [if_pos hu]
    refine ⟨by simp [hu], fun _ => ⟨?_, ?_, ?_⟩, fun hn => absurd hu hn⟩
    · exact .inr ⟨_, Dict.get?_set_self _ _ _, .inl (Dict.get?_set_self _ _ _)⟩
    · intro other m' z' ho h'
      refine .inr ⟨_, Dict.get?_set_self _ _ _, ?_⟩
      rw [Dict.get?_set_ne _ _ (Ne.symm ho)]
      obtain ⟨c', hc', hg'⟩ := readCache_holds h'
      rw [hc] at hc'
      cases hc'
      unfold cacheGet at hg'
      cases he : c.get? other with
      | none => rw [he] at hg'; cases hg'; exact .inr ⟨rfl, rfl, rfl⟩
      | some v => rw [he] at hg'; cases hg'; exact .inl rfl
    · intro p hp
      simp only [GS.write, GS.to]
      rw [Dict.get?_set_ne _ _ (Ne.symm hp), Dict.get?_set_ne _ _ (Ne.symm hp)]
  · rw [if_neg hu]
    exact ⟨by simp [hu], fun hn => absurd hn hu, fun _ => rfl⟩

/-- **C50**: the same file is reported once. -/
theorem C50_once (cfg : Cfg) (fname : Str) (s : GS) (m z : Int) (h : Holds cfg s.disk fname m z) :
    (wasFileUpdated cfg fname (wasFileUpdated cfg fname s).1).2 = .ok false := by
  obtain ⟨h1, h2, h3⟩ := C50_updated cfg fname s m z h
  by_cases hu : (cfg.files fname).mtime ≠ m ∧ (cfg.files fname).size ≠ z
  · rw [(C50_updated cfg fname _ _ _ (h2 hu).1).1]
    simp
  · rw [h3 hu, h1]
    simp [hu]

/-- **C50**: a cache that was emptied and not written again cannot be read: an error, no change. -/
theorem C50_torn (cfg : Cfg) (fname : Str) (s : GS) (h : s.disk.get? (cachePath cfg) = some (.cache none)) :
    wasFileUpdated cfg fname s = (s, .error .ValueError) := by
  unfold wasFileUpdated readCache
  rw [h]

/-- the documented meaning, "newer than the cache", is not what happens: a file of the same size with a
later time is not reported -/
theorem C50_missed (cfg : Cfg) (fname : Str) (s : GS) (m z : Int) (h : Holds cfg s.disk fname m z)
    (_ : m < (cfg.files fname).mtime) (he : (cfg.files fname).size = z) :
    wasFileUpdated cfg fname s = (s, .ok false) := by
  obtain ⟨h1, -, h3⟩ := C50_updated cfg fname s m z h
  have hn : ¬ ((cfg.files fname).mtime ≠ m ∧ (cfg.files fname).size ≠ z) := fun h => h.2 he
  exact Prod.ext (h3 hn) (by rw [h1]; simp [he])

/-- a gallery for the examples -/
def galleryCfg (files : List (Str × FileSt)) : Cfg where
  plotDir := p!"/gallery"
  files := fun n => (files.lookup n).getD ⟨.missing, 0, 0⟩
  now := 1000
  draw := fun _ => .ok ()

theorem C50_nonvacuous :
    let cfg := galleryCfg [(p!"a.dat", ⟨.file (some []), 30, 12⟩), (p!"b.dat", ⟨.file (some []), 30, 9⟩)]
    let d : Disk := [(p!"/gallery/mtime_cache.json", .cache (some [(p!"a.dat", (20, 10)), (p!"b.dat", (10, 9))]))]
    Holds cfg d p!"a.dat" 20 10 ∧ Holds cfg d p!"b.dat" 10 9 ∧ Holds cfg d p!"c.dat" 0 0 ∧
    (wasFileUpdated cfg p!"a.dat" { disk := d, sel := Plot.instanceOf none }).2 = .ok true ∧
    (wasFileUpdated cfg p!"b.dat" { disk := d, sel := Plot.instanceOf none }).2 = .ok false := by
  refine ⟨?_, ?_, ?_, by decide, by decide⟩ <;> refine .inr ⟨_, rfl, ?_⟩
  · exact .inl rfl
  · exact .inl rfl
  · exact .inr ⟨rfl, rfl, rfl⟩

end S2N.Props
