import Verif.Spec.Cli
import Verif.Props.ScanList
import Verif.Props.Utils
import Verif.Props.Save
/-
C57–C61: the command-line programs.
-/
namespace S2N.Props
open S2N S2N.Py S2N.Spec

/-! ## Lists of scan numbers -/

theorem splitC_one {c : Char} {s a : Str} (h : splitC c s = [a]) : s = a ∧ c ∉ a := by
  have e := join_splitC c s
  rw [h] at e
  have hn := splitP_not_mem (· == c) s
  unfold splitC at h
  rw [h] at hn
  refine ⟨e.symm, fun hc => ?_⟩
  have := hn a (by simp) c hc
  simp at this

theorem splitC_two {c : Char} {s a b : Str} (h : splitC c s = [a, b]) :
    s = a ++ c :: b ∧ c ∉ a ∧ c ∉ b := by
  have e := join_splitC c s
  rw [h] at e
  have hn := splitP_not_mem (· == c) s
  unfold splitC at h
  rw [h] at hn
  refine ⟨?_, fun hc => ?_, fun hc => ?_⟩
  · rw [← e]; simp [join]
  · have := hn a (by simp) c hc; simp at this
  · have := hn b (by simp) c hc; simp at this

theorem splitC_of_not_mem {c : Char} {s : Str} (h : c ∉ s) : splitC c s = [s] :=
  splitP_of_none _ _ (by intro x hx; simp; rintro rfl; exact h hx)

theorem splitC_pair {c : Char} {a b : Str} (ha : c ∉ a) (hb : c ∉ b) :
    splitC c (a ++ c :: b) = [a, b] := by
  have := splitC_join c [a, b] (by simp) (by simp [ha, hb])
  simpa [join] using this

theorem mem_intRange (a b k : Int) :
    k ∈ (List.range (b + 1 - a).toNat).map (fun (i : Nat) => a + i) ↔ a ≤ k ∧ k ≤ b := by
  simp only [List.mem_map, List.mem_range]
  constructor
  · rintro ⟨i, hi, rfl⟩; omega
  · rintro ⟨h1, h2⟩; exact ⟨(k - a).toNat, by omega, by omega⟩

theorem specItem_ok {item : Str} {t : Term} (h : Stands item t) :
    ∃ l, Nexus.specItem item = .ok l ∧ ∀ k, k ∈ l ↔ t.has k := by
  cases h with
  | one h1 h2 =>
    refine ⟨_, by unfold Nexus.specItem; rw [splitC_of_not_mem h1]; simp only [Py.int, h2]; rfl, ?_⟩
    intro k; simp [Term.has]
  | range h1 h2 h3 h4 =>
    refine ⟨_, by unfold Nexus.specItem; rw [splitC_pair h1 h2]; simp only [Py.int, h3, h4]; rfl, ?_⟩
    intro k; exact mem_intRange _ _ _

theorem specItem_error {item : Str} (h : ¬ ∃ t, Stands item t) :
    Nexus.specItem item = .error .ValueError ∨ Nexus.specItem item = .error .TypeError := by
  unfold Nexus.specItem
  split
  · rename_i a e
    obtain ⟨rfl, h1⟩ := splitC_one e
    left
    cases hp : parseInt item with
    | none => simp [Py.int, hp, Except.map]
    | some n => exact absurd ⟨_, .one h1 hp⟩ h
  · rename_i a b e
    obtain ⟨rfl, h1, h2⟩ := splitC_two e
    left
    cases hp : parseInt a with
    | none => simp [Py.int, hp]
    | some n =>
      cases hq : parseInt b with
      | none => simp [Py.int, hp, hq]
      | some m => exact absurd ⟨_, .range h1 h2 hp hq⟩ h
  · exact .inr rfl

theorem uniq_fold (l : List Int) (hs : l.Pairwise (· ≤ ·)) : ∀ (acc : List Int), acc.Pairwise (· < ·) →
    (∀ a ∈ acc, ∀ x ∈ l, a ≤ x) →
    (l.foldl (fun sl i => if i ∈ sl then sl else sl ++ [i]) acc).Pairwise (· < ·) ∧
    ∀ k, k ∈ l.foldl (fun sl i => if i ∈ sl then sl else sl ++ [i]) acc ↔ k ∈ acc ∨ k ∈ l := by
  induction l with
  | nil => intro acc ha _; exact ⟨ha, by simp⟩
  | cons x xs ih =>
    intro acc ha hb
    rw [List.pairwise_cons] at hs
    simp only [List.foldl_cons]
    by_cases hx : x ∈ acc
    · rw [if_pos hx]
      obtain ⟨p, q⟩ := ih hs.2 acc ha (fun a h y hy => hb a h y (List.mem_cons_of_mem _ hy))
      refine ⟨p, fun k => ?_⟩
      rw [q, List.mem_cons]
      constructor
      · rintro (h | h); exacts [.inl h, .inr (.inr h)]
      · rintro (h | rfl | h); exacts [.inl h, .inl hx, .inr h]
    · rw [if_neg hx]
      obtain ⟨p, q⟩ := ih hs.2 (acc ++ [x]) (by
          rw [List.pairwise_append]
          refine ⟨ha, by simp, ?_⟩
          intro a h y hy
          simp only [List.mem_singleton] at hy
          subst hy
          have := hb a h y List.mem_cons_self
          have : a ≠ y := by rintro rfl; exact hx h
          omega) (by
          intro a h y hy
          rw [List.mem_append, List.mem_singleton] at h
          rcases h with h | rfl
          · exact hb a h y (List.mem_cons_of_mem _ hy)
          · exact hs.1 y hy)
      refine ⟨p, fun k => ?_⟩
      rw [q]; simp only [List.mem_append, List.mem_cons, List.not_mem_nil, or_false, or_assoc]

theorem uniq_spec (l : List Int) : (Nexus.uniq l).Pairwise (· < ·) ∧ ∀ k, k ∈ Nexus.uniq l ↔ k ∈ l := by
  have hs := sortBy_sorted (fun a b : Int => decide (a ≤ b)) (by intro a b; simp; omega)
    (by intro a b c; simp; omega) l
  obtain ⟨p, q⟩ := uniq_fold _ (hs.imp (by simp)) [] List.Pairwise.nil (by simp)
  refine ⟨p, fun k => ?_⟩
  unfold Nexus.uniq
  rw [q]
  simp [(sortBy_perm (fun a b : Int => decide (a ≤ b)) l).mem_iff]

theorem mapE_specItem : ∀ (items : List Str) (terms : List Term), List.Forall₂ Stands items terms →
    ∃ ls, mapE Nexus.specItem items = .ok ls ∧ ∀ k, k ∈ ls.flatten ↔ ∃ t ∈ terms, t.has k
  | _, _, .nil => ⟨[], rfl, by simp⟩
  | _, _, .cons (a := i) (l₁ := is) h hs => by
    obtain ⟨l, e, m⟩ := specItem_ok h
    obtain ⟨ls, e', m'⟩ := mapE_specItem _ _ hs
    refine ⟨l :: ls, by simp [mapE, e, e'], fun k => ?_⟩
    simp only [List.flatten_cons, List.mem_append, List.mem_cons, exists_eq_or_imp, m, m']

/-- **C57**: a list of numbers and ranges separated by commas gives exactly the numbers listed, in
increasing order and each once. -/
theorem C57_list (items : List Str) (terms : List Term) (hne : items ≠ [])
    (hc : ∀ i ∈ items, ',' ∉ i) (h : List.Forall₂ Stands items terms) :
    ∃ l, Nexus.parseScanListSpec (join p!"," items) = .ok l ∧ l.Pairwise (· < ·) ∧
      ∀ k, k ∈ l ↔ ∃ t ∈ terms, t.has k := by
  obtain ⟨ls, e, m⟩ := mapE_specItem items terms h
  refine ⟨_, by unfold Nexus.parseScanListSpec; rw [splitC_join ',' items hne hc, e], ?_⟩
  obtain ⟨p, q⟩ := uniq_spec ls.flatten
  exact ⟨p, fun k => by rw [q, m]⟩

theorem mapE_err {α β : Type} {f : α → Except PyErr β} {P : PyErr → Prop} : ∀ (l : List α),
    (∀ x ∈ l, ∀ e, f x = .error e → P e) → (∃ x ∈ l, ∃ e, f x = .error e) →
    ∃ e, mapE f l = .error e ∧ P e
  | [], _, ⟨x, hx, _⟩ => by cases hx
  | y :: ys, hp, ⟨x, hx, e, he⟩ => by
    cases hy : f y with
    | error e' => exact ⟨e', by simp [mapE, hy], hp y List.mem_cons_self e' hy⟩
    | ok b =>
      have : x ∈ ys := by
        rcases List.mem_cons.1 hx with rfl | h
        · rw [he] at hy; cases hy
        · exact h
      obtain ⟨e', h1, h2⟩ := mapE_err ys (fun x hx => hp x (List.mem_cons_of_mem _ hx)) ⟨x, this, e, he⟩
      exact ⟨e', by simp [mapE, hy, h1], h2⟩

theorem stands_cases (l : List Str) :
    (∃ terms, List.Forall₂ Stands l terms) ∨ ∃ x ∈ l, ¬ ∃ t, Stands x t := by
  induction l with
  | nil => exact .inl ⟨[], .nil⟩
  | cons x xs ih =>
    by_cases h : ∃ t, Stands x t
    · rcases ih with ⟨ts, h'⟩ | ⟨y, hy, h'⟩
      · obtain ⟨t, h⟩ := h; exact .inl ⟨t :: ts, .cons h h'⟩
      · exact .inr ⟨y, List.mem_cons_of_mem _ hy, h'⟩
    · exact .inr ⟨x, List.mem_cons_self, h⟩

/-- **C57**: any other option is refused, with ValueError or TypeError. -/
theorem C57_refused (s : Str) (h : ¬ ∃ terms, List.Forall₂ Stands (splitC ',' s) terms) :
    ∃ e, Nexus.parseScanListSpec s = .error e ∧ (e = .ValueError ∨ e = .TypeError) := by
  obtain ⟨x, hx, hn⟩ := (stands_cases (splitC ',' s)).resolve_left h
  obtain ⟨e, h1, h2⟩ := mapE_err (f := Nexus.specItem) (P := fun e => e = .ValueError ∨ e = .TypeError)
    (splitC ',' s) (by
      intro y _ e he
      by_cases hy : ∃ t, Stands y t
      · obtain ⟨t, ht⟩ := hy
        obtain ⟨l, hl, _⟩ := specItem_ok ht
        rw [hl] at he; cases he
      · rcases specItem_error hy with h | h <;> rw [h] at he <;> cases he <;> simp)
    ⟨x, hx, by rcases specItem_error hn with h | h <;> exact ⟨_, h⟩⟩
  exact ⟨e, by unfold Nexus.parseScanListSpec; rw [h1], h2⟩

/-- a specification with a number, ranges, an empty range and repetitions -/
theorem C57_nonvacuous :
    List.Forall₂ Stands [p!"7", p!"3-5", p!"4", p!"9-8"] [.one 7, .range 3 5, .one 4, .range 9 8] ∧
    Nexus.parseScanListSpec p!"7,3-5,4,9-8" = .ok [3, 4, 5, 7] := by
  refine ⟨?_, by decide +kernel⟩
  refine .cons (.one (by decide) (by decide)) (.cons ?_ (.cons (.one (by decide) (by decide)) (.cons ?_ .nil)))
  · exact Stands.range (t := p!"3") (u := p!"5") (by decide) (by decide) (by decide) (by decide)
  · exact Stands.range (t := p!"9") (u := p!"8") (by decide) (by decide) (by decide) (by decide)

/-- `-s all`, which the help text offers, is refused; a term with two dashes gives a TypeError
although a ValueError was meant. -/
theorem C57_all_refused : Nexus.parseScanListSpec p!"all" = .error .ValueError ∧
    Nexus.parseScanListSpec p!"1-2-3" = .error .TypeError := by decide +kernel

/-! ## Selecting scans -/

/-- **C58**: without the option all scans are taken. -/
theorem C58_all (all : List Str) : Nexus.pickScans all none = all := rfl

/-- **C58**: with a list of numbers, exactly the scans of the file which have one of these numbers as
name are taken, in the order of the list, none of them twice if the list repeats none. -/
theorem C58_listed (all : List Str) (l : List Int) :
    (∀ s, s ∈ Nexus.pickScans all (some l) ↔ s ∈ all ∧ ∃ n ∈ l, s = intStr n) ∧
    (Nexus.pickScans all (some l)).Sublist (l.map intStr) ∧
    (l.Nodup → (Nexus.pickScans all (some l)).Nodup) := by
  refine ⟨fun s => ?_, List.filter_sublist, fun h => ?_⟩
  · simp only [Nexus.pickScans, List.mem_filter, List.mem_map, decide_eq_true_eq]
    constructor
    · rintro ⟨⟨n, hn, rfl⟩, h⟩; exact ⟨h, n, hn, rfl⟩
    · rintro ⟨h, n, hn, rfl⟩; exact ⟨⟨n, hn, rfl⟩, h⟩
  · refine List.Nodup.sublist List.filter_sublist ?_
    rw [List.nodup_iff_pairwise_ne, List.pairwise_map]
    exact (List.nodup_iff_pairwise_ne.1 h).imp (fun hab e => hab (intStr_injective e))

theorem C58_nonvacuous :
    Nexus.pickScans [p!"1", p!"2", p!"2.1", p!"3"] (some [2, 3, 4]) = [p!"2", p!"3"] := by decide +kernel

/-! ## The spec2nexus program and existing files -/

@[simp] theorem say_fs (b : Bool) (l : Str) (c : Con) : (c.say b l).fs = c.fs := by
  unfold Con.say; split <;> rfl

section
variable [UniDB] (env : Env) (reg : List HKey) (v : Writer.Versions)

theorem convert_fs (a : Nexus.Args) (scans : Option (List Int)) (f : Str) (c : Con) :
    ((Nexus.convert env reg v a scans f c).1.fs = c.fs ∧
      ((Nexus.convert env reg v a scans f c).2 = none →
        c.fs.exists? f = false ∨ (a.force = false ∧ c.fs.exists? (Nexus.outputName a f) = true))) ∨
    ((a.force = true ∨ c.fs.exists? (Nexus.outputName a f) = false) ∧
      ∃ x, (Nexus.convert env reg v a scans f c).1.fs = c.fs.put (Nexus.outputName a f) (.hdf x) ∧
        ((Nexus.convert env reg v a scans f c).2 = none → Converted env reg v scans c.fs f x)) := by
  unfold Nexus.convert
  split
  · rename_i h; left; exact ⟨say_fs _ _ _, fun _ => .inl h⟩
  · simp only [say_fs]
    cases h1 : Sdf.openFile env reg f (Stored.file (c.fs.at? f)) (Stored.file (c.fs.at? f)) with
    | error e => left; exact ⟨say_fs _ _ _, fun h => by cases h⟩
    | ok sdf =>
      simp only [Res.eval_ok]
      cases h2 : sdf.getScanNumbers with
      | error e => left; exact ⟨say_fs _ _ _, fun h => by cases h⟩
      | ok all =>
        simp only [Res.eval_ok]
        split
        · rename_i hf
          simp only [Bool.or_eq_true, Bool.not_eq_true'] at hf
          unfold Nexus.saveAs
          simp only [say_fs]
          split
          · left; exact ⟨by simp, fun h => by cases h⟩
          · right
            refine ⟨hf, (Writer.save env reg v ((Nexus.pickScans all scans).map .str) sdf).1.h5, ?_⟩
            rw [show ∀ (x : Con) (o : Option PyErr) f, Res.andThen (x, o) f = (match o with | none => f x | some e => (x, some e)) from
              fun x o f => by cases o <;> rfl]
            cases h3 : (Writer.save env reg v ((Nexus.pickScans all scans).map .str) sdf).2 with
            | some e => exact ⟨rfl, fun h => by cases h⟩
            | none =>
              refine ⟨say_fs _ _ _, fun _ => ⟨sdf, all, _, h1, h2, Prod.ext rfl h3, rfl⟩⟩
        · rename_i hf
          simp only [Bool.or_eq_true, Bool.not_eq_true', not_or, Bool.not_eq_false] at hf
          left
          exact ⟨by simp, fun _ => .inr ⟨by simpa using hf.1, hf.2⟩⟩

/-- what every step of the program leaves alone -/
structure Keeps (a : Nexus.Args) (d d' : Fs) (fs : List Str) : Prop where
  real : d'.real = d.real
  other : ∀ p, (∀ f ∈ fs, d.real (Nexus.outputName a f) ≠ p) → d'.files.get? p = d.files.get? p
  old : a.force = false → ∀ p x, d.files.get? p = some x → d'.files.get? p = some x

theorem keeps_convert (a : Nexus.Args) (scans : Option (List Int)) (f : Str) (c : Con) :
    Keeps a c.fs (Nexus.convert env reg v a scans f c).1.fs [f] := by
  rcases convert_fs env reg v a scans f c with ⟨h, _⟩ | ⟨hf, x, h, _⟩
  · rw [h]; exact ⟨rfl, fun _ _ => rfl, fun _ _ _ h => h⟩
  · rw [h]
    refine ⟨rfl, fun p hp => Dict.get?_set_ne _ _ (hp f (by simp)), fun hn p y hy => ?_⟩
    refine (Dict.get?_set_ne _ _ ?_).trans hy
    rintro rfl
    rcases hf with hf | hf
    · rw [hf] at hn; cases hn
    · unfold Fs.exists? Fs.at? at hf; rw [hy] at hf; cases hf

theorem Keeps.trans {a : Nexus.Args} {d d' d'' : Fs} {l l' : List Str} (h : Keeps a d d' l)
    (h' : Keeps a d' d'' l') : Keeps a d d'' (l ++ l') := by
  refine ⟨h'.real.trans h.real, fun p hp => ?_, fun hf p x hx => h'.old hf p x (h.old hf p x hx)⟩
  rw [h'.other p (fun f hf => by rw [h.real]; exact hp f (List.mem_append_right _ hf)),
    h.other p (fun f hf => hp f (List.mem_append_left _ hf))]

theorem keeps_loop (a : Nexus.Args) (scans : Option (List Int)) : ∀ (fs : List Str) (c : Con),
    Keeps a c.fs (forEach (Nexus.convert env reg v a scans) fs c).1.fs fs
  | [], c => ⟨rfl, fun _ _ => rfl, fun _ _ _ h => h⟩
  | f :: fs, c => by
    simp only [forEach, Res.andThen]
    split
    · exact (keeps_convert env reg v a scans f c).trans (keeps_loop a scans fs _)
    · have := keeps_convert env reg v a scans f c
      exact ⟨this.real, fun p hp => this.other p (fun g hg => hp g (by simp at hg; simp [hg])), this.old⟩

theorem keeps_main (a : Nexus.Args) (c : Con) :
    Keeps a c.fs (Nexus.main env reg v a c).1.fs a.infile := by
  unfold Nexus.main
  simp only [Res.eval]
  split
  · exact keeps_loop env reg v a _ _ c
  · exact ⟨rfl, fun _ _ => rfl, fun _ _ _ h => h⟩

/-- **C59**: unless `--force` is given, every file that exists before the run is the same
afterwards, however the run ends. -/
theorem C59_existing_kept (a : Nexus.Args) (c : Con) (hf : a.force = false) (name : Str)
    (h : c.fs.exists? name = true) : SameFile c.fs (Nexus.main env reg v a c).1.fs name := by
  have k := keeps_main env reg v a c
  unfold Fs.exists? at h
  obtain ⟨x, hx⟩ := Option.isSome_iff_exists.1 h
  unfold SameFile
  rw [hx]
  unfold Fs.at?
  rw [k.real]
  exact k.old hf _ x hx

/-- **C59**: even with `--force`, no file is touched except the output files of the input files. -/
theorem C59_only_outputs (a : Nexus.Args) (c : Con) (name : Str)
    (h : ∀ f ∈ a.infile, c.fs.real (Nexus.outputName a f) ≠ c.fs.real name) :
    SameFile c.fs (Nexus.main env reg v a c).1.fs name := by
  have k := keeps_main env reg v a c
  unfold SameFile Fs.at?
  rw [k.real]
  exact k.other _ h

/-- the scans chosen by the option `-s` -/
def Chosen (a : Nexus.Args) (scans : Option (List Int)) : Prop :=
  match a.scans with
  | none => scans = none
  | some s => ∃ l, Nexus.parseScanListSpec s = .ok l ∧ scans = some l

/-- **C59**: after a run without error, the output file of each existing input file — if it did not
exist, and the output of no earlier existing input file has the same name — holds the selected scans
of that input file. -/
theorem C59_converts (a : Nexus.Args) (c : Con) (hf : a.force = false)
    (hok : (Nexus.main env reg v a c).2 = none) (pre post : List Str) (f : Str)
    (hi : a.infile = pre ++ f :: post) (hx : c.fs.exists? f = true)
    (ho : c.fs.exists? (Nexus.outputName a f) = false)
    (hd : ∀ g ∈ pre, c.fs.real (Nexus.outputName a g) ≠ c.fs.real (Nexus.outputName a f)) :
    ∃ scans x, Chosen a scans ∧ Converted env reg v scans c.fs f x ∧
      (Nexus.main env reg v a c).1.fs.at? (Nexus.outputName a f) = some (.hdf x) := by
  unfold Nexus.main at hok ⊢
  simp only [Res.eval] at hok ⊢
  split at hok
  · rename_i scans hs
    have hch : Chosen a scans := by
      unfold Chosen
      cases ha : a.scans with
      | none => rw [ha] at hs; cases hs; rfl
      | some s =>
        rw [ha] at hs
        simp only at hs ⊢
        cases hp : Nexus.parseScanListSpec s with
        | error e => rw [hp] at hs; cases hs
        | ok l => rw [hp] at hs; cases hs; exact ⟨l, rfl, rfl⟩
    rw [hi, forEach_append] at hok ⊢
    obtain ⟨h1, h2, h3⟩ := andThen_none hok
    rw [h2]
    have k1 := keeps_loop env reg v a scans pre c
    generalize (forEach (Nexus.convert env reg v a scans) pre c).1 = c1 at *
    obtain ⟨h4, h5, h6⟩ := forEach_cons_ok h3
    rw [h5]
    have e1 : c1.fs.at? f = c.fs.at? f := by
      unfold Fs.exists? at hx
      obtain ⟨x, hx⟩ := Option.isSome_iff_exists.1 hx
      rw [hx]; unfold Fs.at?; rw [k1.real]; exact k1.old hf _ x hx
    have e2 : c1.fs.exists? (Nexus.outputName a f) = false := by
      unfold Fs.exists? Fs.at? at ho ⊢
      rw [k1.real, k1.other _ hd]; exact ho
    rcases convert_fs env reg v a scans f c1 with ⟨_, h⟩ | ⟨_, x, h7, h8⟩
    · rcases h h4 with h | ⟨_, h⟩
      · unfold Fs.exists? at h hx; rw [e1, hx] at h; cases h
      · rw [e2] at h; cases h
    · refine ⟨scans, x, hch, ?_, ?_⟩
      · have := h8 h4
        unfold Converted at this ⊢
        rw [e1] at this; exact this
      · have k3 := keeps_loop env reg v a scans post (Nexus.convert env reg v a scans f c1).1
        unfold Fs.at?
        rw [k3.real]
        refine k3.old hf _ _ ?_
        rw [h7]
        exact Dict.get?_set_self _ _ _
  · cases hok

end

/-! ## extractSpecScan: ranges -/

theorem counts_range (a b : Int) :
    Counts a b ((List.range (b + 1 - a).toNat).map (fun (i : Nat) => intStr (a + i))) := by
  refine ⟨by simp only [List.length_map, List.length_range]; omega, fun i t h => ?_⟩
  rw [List.getElem?_map] at h
  cases hr : (List.range (b + 1 - a).toNat)[i]? with
  | none => rw [hr] at h; cases h
  | some j =>
    rw [hr] at h
    obtain ⟨hi, e⟩ := List.getElem?_eq_some_iff.1 hr
    simp at e; subst e
    cases h; rfl

theorem _root_.S2N.Spec.Counts.unique {a b : Int} {l l' : List Str} (h : Counts a b l) (h' : Counts a b l') : l = l' := by
  apply List.ext_getElem?
  intro i
  have hl : l.length = l'.length := by have := h.length; have := h'.length; omega
  cases e : l[i]? with
  | none =>
    rw [List.getElem?_eq_none_iff] at e
    rw [eq_comm, List.getElem?_eq_none_iff]; omega
  | some t =>
    obtain ⟨hi, _⟩ := List.getElem?_eq_some_iff.1 e
    have hi' : i < l'.length := by omega
    rw [List.getElem?_eq_getElem hi', h.value i t e, h'.value i _ (List.getElem?_eq_getElem hi')]

theorem expandTerm_ok {item : Str} {out : List Str} (h : Expands item out) :
    Extract.expandTerm item = .ok out := by
  unfold Extract.expandTerm
  cases h with
  | negative => simp [startsWith]
  | plain h =>
    have : startsWith item ['-'] = false := by
      cases item with
      | nil => rfl
      | cons c cs =>
        simp only [startsWith, List.isPrefixOf]
        simp at h
        simp [h.1]
    rw [this, splitC_of_not_mem h]
    simp
  | range h1 h2 h3 h4 h5 =>
    rename_i t u a b
    have ht : t ≠ [] := by
      rintro rfl
      rw [show parseInt [] = none from by decide] at h3; cases h3
    have : startsWith (t ++ '-' :: u) ['-'] = false := by
      cases t with
      | nil => exact absurd rfl ht
      | cons c cs =>
        simp only [startsWith, List.cons_append, List.isPrefixOf]
        simp at h1
        simp [h1.1]
    rw [this, splitC_pair h1 h2]
    simp only [Py.int, h3, h4]
    rw [h5.unique (counts_range a b)]
    simp

theorem expandTerm_error {item : Str} (h : ¬ ∃ out, Expands item out) :
    Extract.expandTerm item = .error .ValueError := by
  unfold Extract.expandTerm
  split
  · rename_i hs
    exfalso; apply h
    cases item with
    | nil => cases hs
    | cons c cs =>
      simp only [startsWith, List.isPrefixOf, Bool.and_true, beq_iff_eq] at hs
      subst hs; exact ⟨_, .negative⟩
  · split
    · rename_i e
      exact absurd ⟨_, .plain (by obtain ⟨rfl, h1⟩ := splitC_one e; exact h1)⟩ h
    · rename_i a b e
      obtain ⟨rfl, h1, h2⟩ := splitC_two e
      cases hp : parseInt a with
      | none => simp [Py.int, hp]
      | some n =>
        cases hq : parseInt b with
        | none => simp [Py.int, hp, hq]
        | some m => exact absurd ⟨_, .range h1 h2 hp hq (counts_range n m)⟩ h
    · rfl

/-- **C60**: every term is replaced by what it stands for, in order. -/
theorem C60_expanded (items : List Str) (outs : List (List Str)) (h : List.Forall₂ Expands items outs) :
    Extract.expandTerms items = .ok outs.flatten := by
  have : mapE Extract.expandTerm items = .ok outs := by
    induction h with
    | nil => rfl
    | cons h _ ih => simp [mapE, expandTerm_ok h, ih]
  simp [Extract.expandTerms, this, Except.map]

/-- **C60**: if any term has no meaning, ValueError is raised. -/
theorem C60_refused (items : List Str) (h : ¬ ∃ outs, List.Forall₂ Expands items outs) :
    Extract.expandTerms items = .error .ValueError := by
  have : ∃ x ∈ items, ¬ ∃ out, Expands x out := by
    induction items with
    | nil => exact absurd ⟨[], .nil⟩ h
    | cons x xs ih =>
      by_cases hx : ∃ out, Expands x out
      · obtain ⟨o, hx⟩ := hx
        obtain ⟨y, hy, h'⟩ := ih (fun ⟨os, hs⟩ => h ⟨o :: os, .cons hx hs⟩)
        exact ⟨y, List.mem_cons_of_mem _ hy, h'⟩
      · exact ⟨x, List.mem_cons_self, hx⟩
  obtain ⟨x, hx, hn⟩ := this
  obtain ⟨e, h1, rfl⟩ := mapE_err (f := Extract.expandTerm) (P := fun e => e = .ValueError) items (by
    intro y _ e he
    by_cases hy : ∃ out, Expands y out
    · obtain ⟨t, ht⟩ := hy
      rw [expandTerm_ok ht] at he; cases he
    · rw [expandTerm_error hy] at he; cases he; rfl) ⟨x, hx, _, expandTerm_error hn⟩
  simp [Extract.expandTerms, h1, Except.map]

theorem C60_nonvacuous :
    List.Forall₂ Expands [p!"5.1", p!"8-10", p!"-1"] [[p!"5.1"], [p!"8", p!"9", p!"10"], [p!"-1"]] ∧
    Extract.expandTerms [p!"5.1", p!"8-10", p!"-1"] = .ok [p!"5.1", p!"8", p!"9", p!"10", p!"-1"] ∧
    Extract.expandTerms [p!"1-2-3"] = .error .ValueError := by
  refine ⟨.cons (.plain (by decide)) (.cons ?_ (.cons .negative .nil)), by decide +kernel, by decide +kernel⟩
  refine Expands.range (t := p!"8") (u := p!"10") (a := 8) (b := 10) (by decide) (by decide) (by decide) (by decide) ?_
  have := counts_range 8 10
  rwa [show (List.range ((10 : Int) + 1 - 8).toNat).map (fun (i : Nat) => intStr (8 + i)) =
    [p!"8", p!"9", p!"10"] from by decide +kernel] at this

/-! ## extractSpecScan: names of the output files -/

theorem splitext_join (p : Str) : (splitext p).1 ++ (splitext p).2 = p := by
  unfold splitext
  split
  · simp
  · split <;> simp

theorem replaceC_inj {c d : Char} : ∀ {a b : Str}, d ∉ a → d ∉ b →
    replaceC c [d] a = replaceC c [d] b → a = b
  | [], [], _, _, _ => rfl
  | [], y :: b, _, _, h => by
    simp only [replaceC] at h; split at h <;> simp at h
  | x :: a, [], _, _, h => by
    simp only [replaceC] at h; split at h <;> simp at h
  | x :: a, y :: b, ha, hb, h => by
    simp only [List.mem_cons, not_or] at ha hb
    simp only [replaceC] at h
    split at h <;> split at h <;> simp at h
    · rename_i h1 h2; rw [h1, h2, replaceC_inj ha.2 hb.2 h]
    · exact absurd h.1 hb.1
    · exact absurd h.1.symm ha.1
    · rw [h.1, replaceC_inj ha.2 hb.2 h.2]

/-- **C61**, proved in part: scan numbers without underscores get different names.  The full claim is
false, see `C61_collision`. -/
theorem C61_distinct_partial (file m n : Str) (hm : '_' ∉ m) (hn : '_' ∉ n)
    (h : Extract.outputName file m = Extract.outputName file n) : m = n := by
  unfold Extract.outputName at h
  simp only [List.append_assoc, List.cons_append] at h
  have h := List.append_cancel_left h
  rw [← List.cons_append, ← List.cons_append] at h
  have h := List.append_cancel_right h
  simp only [List.cons.injEq, true_and] at h
  exact replaceC_inj hm hn h

/-- two arguments, both of which `getScan` may accept, share a file -/
theorem C61_collision : Extract.outputName p!"a.dat" p!"1.2" = Extract.outputName p!"a.dat" p!"1_2" := by
  decide +kernel

/-- **C61**: the output is never written over the SPEC file itself. -/
theorem C61_not_the_input (file n : Str) : Extract.outputName file n ≠ file := by
  intro h
  have h1 := congrArg List.length h
  have h2 := congrArg List.length (splitext_join file)
  unfold Extract.outputName at h1
  simp only [List.length_append, List.length_cons] at h1 h2
  omega

theorem rfindC_last (c : Char) (a b : Str) (h : c ∉ b) : rfindC c (a ++ c :: b) = some a.length := by
  have key : ∀ (s : Str), c ∉ s → ∀ t, findC c (s ++ c :: t) = some s.length := by
    intro s hs t
    induction s with
    | nil => simp [findC]
    | cons x s ih =>
      simp only [List.mem_cons, not_or] at hs
      simp only [List.cons_append, findC, if_neg (Ne.symm hs.1), ih hs.2]
      simp
  unfold rfindC
  rw [show (a ++ c :: b).reverse = b.reverse ++ c :: a.reverse by simp, key _ (by simpa using h)]
  simp

theorem splitext_named (dir base ext : Str) (hd : dir = [] ∨ dir.getLast? = some '/') (hb : '/' ∉ base)
    (hbase : ∃ c ∈ base, c ≠ '.') (he : '.' ∉ ext ∧ '/' ∉ ext) :
    splitext (dir ++ base ++ '.' :: ext) = (dir ++ base, '.' :: ext) := by
  unfold splitext
  rw [rfindC_last _ _ _ he.1]
  simp only
  have hst : nameStart (dir ++ base ++ '.' :: ext) = dir.length := by
    unfold nameStart
    have hrest : '/' ∉ base ++ '.' :: ext := by
      simp only [List.mem_append, List.mem_cons, not_or]
      exact ⟨hb, by decide, he.2⟩
    rcases hd with rfl | hd
    · have : rfindC '/' ([] ++ base ++ '.' :: ext) = none := by
        have key : ∀ (s : Str), '/' ∉ s → findC '/' s = none := by
          intro s hs
          induction s with
          | nil => rfl
          | cons x s ih =>
            simp only [List.mem_cons, not_or] at hs
            simp only [findC, if_neg (Ne.symm hs.1), ih hs.2]
            rfl
        unfold rfindC
        rw [List.nil_append, key _ (fun h => hrest (List.mem_reverse.1 h))]
        rfl
      rw [this]; rfl
    · obtain ⟨d, rfl⟩ : ∃ d, dir = d ++ ['/'] := by
        rw [List.getLast?_eq_some_iff] at hd; exact hd
      rw [show d ++ ['/'] ++ base ++ '.' :: ext = d ++ '/' :: (base ++ '.' :: ext) by simp,
        rfindC_last _ _ _ hrest]
      simp
  rw [hst]
  have : (List.drop dir.length (List.take (dir ++ base).length (dir ++ base ++ '.' :: ext))) = base := by
    rw [List.take_left' rfl, List.drop_left' rfl]
  rw [this, if_pos]
  · rw [List.take_left' rfl, List.drop_left' rfl]
  · obtain ⟨c, hc, hne⟩ := hbase
    refine ⟨by simp, List.any_eq_true.2 ⟨c, hc, by simpa using hne⟩⟩

/-- **C61**: the scan number, with underscores for dots, is put before the extension of the file. -/
theorem C61_place (dir base ext n : Str) (hd : dir = [] ∨ dir.getLast? = some '/') (hb : '/' ∉ base)
    (hbase : ∃ c ∈ base, c ≠ '.') (he : '.' ∉ ext ∧ '/' ∉ ext) (hn : '.' ∉ n) :
    Extract.outputName (dir ++ base ++ '.' :: ext) n = dir ++ base ++ '_' :: n ++ '.' :: ext := by
  have hs := splitext_named dir base ext hd hb hbase he
  unfold Extract.outputName
  rw [hs, replaceC_of_not_mem _ _ _ hn]

/-- **C59**: the output file is the one named with -o, or else is named as the input file with the
extension given, with or without its dot, in place of its own. -/
theorem C59_output_name (a : Nexus.Args) (dir base ext e : Str) (hd : dir = [] ∨ dir.getLast? = some '/')
    (hb : '/' ∉ base) (hbase : ∃ c ∈ base, c ≠ '.') (he : '.' ∉ ext ∧ '/' ∉ ext) :
    (a.output = none → (a.ext = '.' :: e ∨ a.ext = e ∧ e.head? ≠ some '.') →
      Nexus.outputName a (dir ++ base ++ '.' :: ext) = dir ++ base ++ '.' :: e) ∧
    ∀ o, a.output = some o → Nexus.outputName a (dir ++ base ++ '.' :: ext) = o := by
  unfold Nexus.outputName
  refine ⟨fun h hx => ?_, fun o h => by rw [h]⟩
  rw [h, splitext_named dir base ext hd hb hbase he]
  simp only [Nexus.dotted]
  rcases hx with hx | ⟨hx, hne⟩
  · rw [hx, if_pos (by rfl)]
  · rw [hx, if_neg]
    intro hc
    unfold startsWith at hc
    obtain ⟨t, ht⟩ := List.isPrefixOf_iff_prefix.1 hc
    rw [← ht] at hne
    exact hne rfl

/-- The documented extension ".dat" for a file without extension is not added. -/
theorem C61_no_extension : Extract.outputName p!"CeCoIn5" p!"5" = p!"CeCoIn5_5" ∧
    Extract.outputName p!"data.d/CeCoIn5" p!"5.1" = p!"data.d/CeCoIn5_5_1" := by decide +kernel

theorem C61_nonvacuous : Extract.outputName p!"data.d/CeCoIn5.dat" p!"77" = p!"data.d/CeCoIn5_77.dat" := by
  decide +kernel

/-- two data files, one of which has an old output beside it -/
def nexusDemo : Con :=
  { fs := { real := id, writable := fun _ => true, files := [(p!"demo.dat", .text (some saveText) 1 100),
      (p!"old.dat", .text (some saveText) 1 100), (p!"old.hdf5", .text (some p!"precious") 1 8)] }, printed := [] }

/-- the run on these files and a missing one -/
def nexusRun : Res Con := @Nexus.main asciiDB saveEnv HKey.all saveVersions
  { infile := [p!"old.dat", p!"nothing.dat", p!"demo.dat"], scans := some p!"1,3" } nexusDemo

/-- the names of the entries of an HDF5 file -/
def entriesIn : Option Stored → List Str
  | some (.hdf h) => childrenAt h []
  | _ => []

/-- C59: the hypotheses are met: the run ends without error, the old output is kept, and the missing
output is made with the two scans asked for. -/
theorem C59_nonvacuous : nexusRun.2 = none ∧ nexusRun.1.fs.exists? p!"old.hdf5" = true ∧
    nexusDemo.fs.exists? p!"demo.hdf5" = false ∧
    entriesIn (nexusRun.1.fs.at? p!"demo.hdf5") = [p!"S1", p!"S3"] ∧
    entriesIn (nexusRun.1.fs.at? p!"old.hdf5") = [] := by decide +kernel

end S2N.Props
