import Verif.Props.Save
import Verif.Props.Last
/-
C82: the attributes of the file written by `Writer.save`.
-/
namespace S2N.Props
open S2N Py Spec H5 Writer
section
variable [UniDB]

/-- the names of the attributes of a file -/
def fileAttrNames : List Str := [p!"spec2nexus_version", p!"SPEC_file", p!"SPEC_epoch", p!"SPEC_date", p!"SPEC_comments",
  p!"SPEC_num_headers", p!"h5py_version", p!"HDF5_Version", p!"numpy_version", p!"SPEC_user", p!"default"]

theorem file_attrs {env : Env} {reg : List HKey} (hr : reg.Perm HKey.all) (hx : SchemaNames env) {v : Versions}
    {ks : List Ref} {s : Sdf} {r : SState} (hs : Savable s) (hk : ∀ k ∈ ks, PlainText k.text)
    (h : save env reg v ks s = (r, none)) : ∃ a a0, rootAttributes v s = .ok a0 ∧ groupAt r.h5 [] = some a ∧
      a = (match ks with
        | k :: _ => (Dict.update [] a0).set p!"default" (.str (p!"S" ++ k.text))
        | [] => Dict.update [] a0) := by
  obtain ⟨h1, h2, h3, ⟨ch, a, a0, h4, h5, h6, h7⟩, h8⟩ := save_ok hr hx (Savable.ok hs)
    (fun k hk' => plain_entry (hk k hk')) h
  have hroot : objAt r.h5 [] = some (.group ch a) := h5
  exact ⟨a, a0, h4, by unfold groupAt; rw [hroot], h6.trans (by cases ks <;> rfl)⟩

omit [UniDB] in
theorem rootAttributes_inv {v : Versions} {s : Sdf} {a : Dict AVal} (h : rootAttributes v s = .ok a) :
    ∃ h0 hs f ep d, s.headers = h0 :: hs ∧ s.specFile = some f ∧ h0.epoch = some ep ∧ iso8601 h0.date = .ok d ∧
      Dict.update [] a = [(p!"spec2nexus_version", .str v.spec2nexus), (p!"SPEC_file", .str f),
          (p!"SPEC_epoch", .num ep), (p!"SPEC_date", .str d),
          (p!"SPEC_comments", .str (join p!"\n" h0.comments)),
          (p!"SPEC_num_headers", .num (.int s.headers.length)), (p!"h5py_version", .str v.h5py),
          (p!"HDF5_Version", .str v.hdf5), (p!"numpy_version", .str v.numpy)] ++
          (match specUser h0.comments with
            | some u => [(p!"SPEC_user", .str u)]
            | none => []) := by
  unfold rootAttributes at h
  split at h
  · cases h
  · rename_i h0 hs e1
    split at h
    · rename_i f ep e2 e3
      split at h
      · cases h
      · rename_i d e4
        injection h with h
        subst h
        refine ⟨h0, hs, f, ep, d, e1, e2, e3, e4, ?_⟩
        cases hu : specUser h0.comments <;> rfl
    · cases h

omit [UniDB] in
theorem groupAt_attr {s : H5} {p : List Str} {a : Dict AVal} (h : groupAt s p = some a) (n : Str) : attrAt s p n = a.get? n := by
  unfold groupAt at h
  unfold attrAt
  split at h
  · rename_i ch a' e
    rw [e]; injection h with h; subst h; rfl
  · cases h

theorem file_attr {env : Env} {reg : List HKey} (hr : reg.Perm HKey.all) (hx : SchemaNames env) {v : Versions}
    {ks : List Ref} {s : Sdf} {r : SState} (hs : Savable s) (hk : ∀ k ∈ ks, PlainText k.text)
    (h : save env reg v ks s = (r, none)) {a0 : Dict AVal} (h0 : rootAttributes v s = .ok a0) (n : Str) (hn : n ≠ p!"default") :
    attrAt r.h5 [] n = (Dict.update [] a0).get? n := by
  obtain ⟨a, a1, h1, h2, h3⟩ := file_attrs hr hx hs hk h
  rw [h0] at h1
  injection h1 with h1
  subst h1
  rw [groupAt_attr h2, h3]
  cases ks with
  | nil => rfl
  | cons k ks => exact Dict.get?_set_ne _ _ (Ne.symm hn)

/-- The user named in a comment: what follows the first "User = ", without white space at its ends, up to the next "=". -/
def UserIn (c u : Str) : Prop :=
  ∃ pre name rest, c = pre ++ p!"User = " ++ name ++ rest ∧ (∀ a b, c = a ++ p!"User = " ++ b → pre.length ≤ a.length) ∧
    '=' ∉ name ∧ (rest = [] ∨ rest.head? = some '=') ∧ u = strip name

omit [UniDB] in
theorem findS_first {t pre post : Str} (ht : t ≠ []) (hf : ∀ a b, pre ++ (t ++ post) = a ++ t ++ b → pre.length ≤ a.length) :
    findS t (pre ++ (t ++ post)) = some pre.length := by
  cases h : findS t (pre ++ (t ++ post)) with
  | none => exact absurd (by simp) (findS_none ht h pre.length)
  | some p =>
    obtain ⟨⟨b, h1⟩, h2⟩ := findS_some ht h
    have h3 : ¬ pre.length < p := fun hl => h2 _ hl (by simp)
    have h4 : (pre ++ (t ++ post)).take p ++ t ++ b = pre ++ (t ++ post) := by
      rw [List.append_assoc, h1, List.take_append_drop]
    have h5 := hf _ _ h4.symm
    rw [List.length_take] at h5
    congr 1
    omega

omit [UniDB] in
theorem splitC_head (c : Char) : ∀ (w rest : Str), c ∉ w → (rest = [] ∨ rest.head? = some c) →
    (splitC c (w ++ rest))[0]? = some w
  | [], rest, _, h => by
    rcases h with rfl | h
    · rfl
    · cases rest with
      | nil => cases h
      | cons d ds =>
        injection h with h
        subst h
        simp [splitC, splitP]
  | d :: ds, rest, hn, h => by
    have ih := splitC_head c ds rest (fun hm => hn (by simp [hm])) h
    have hd : (d == c) = false := beq_false_of_ne (fun e => hn (by simp [e]))
    unfold splitC at ih ⊢
    simp only [List.cons_append, splitP, hd]
    revert ih
    cases splitP (· == c) (ds ++ rest) with
    | nil => intro ih; cases ih
    | cons x xs =>
      intro ih
      have : x = ds := by simpa using ih
      subst this
      rfl

omit [UniDB] in
theorem strip_space (w : Str) : strip (' ' :: w) = strip w := by
  unfold strip
  rfl

omit [UniDB] in
theorem specUser_in {c u : Str} {cs : List Str} (h : UserIn c u) : specUser (c :: cs) = some u := by
  obtain ⟨pre, name, rest, rfl, h1, h2, h3, rfl⟩ := h
  have e : pre ++ p!"User = " ++ name ++ rest = pre ++ (p!"User = " ++ (name ++ rest)) := by simp
  rw [e] at h1 ⊢
  show Option.map strip (splitC '=' (sliceFrom (findS p!"User = " (pre ++ (p!"User = " ++ (name ++ rest)))) (pre ++ (p!"User = " ++ (name ++ rest)))))[1]? = _
  rw [findS_first (by decide) h1]
  show Option.map strip (splitC '=' ((pre ++ (p!"User = " ++ (name ++ rest))).drop pre.length))[1]? = _
  rw [List.drop_left]
  have : splitC '=' (p!"User = " ++ (name ++ rest)) = p!"User " :: splitC '=' ((' ' :: name) ++ rest) := by
    simp [splitC, splitP]
  rw [this, List.getElem?_cons_succ, splitC_head '=' _ _ (by simp [h2]) h3]
  show some _ = _
  rw [strip_space]

/-- C82: the attributes of the file are the versions, the name of the SPEC data file, the number of its headers, and the
epoch, date and comments of the first header. -/
theorem C82_attributes {env : Env} {reg : List HKey} (hr : reg.Perm HKey.all) (hx : SchemaNames env) {v : Versions}
    {ks : List Ref} {s : Sdf} {r : SState} (hs : Savable s) (hk : ∀ k ∈ ks, PlainText k.text)
    (h : save env reg v ks s = (r, none)) :
    ∃ h0 rest f ep d, s.headers = h0 :: rest ∧ s.specFile = some f ∧ h0.epoch = some ep ∧ iso8601 h0.date = .ok d ∧
      attrAt r.h5 [] p!"spec2nexus_version" = some (.str v.spec2nexus) ∧
      attrAt r.h5 [] p!"SPEC_file" = some (.str f) ∧
      attrAt r.h5 [] p!"SPEC_epoch" = some (.num ep) ∧
      attrAt r.h5 [] p!"SPEC_date" = some (.str d) ∧
      attrAt r.h5 [] p!"SPEC_comments" = some (.str (join p!"\n" h0.comments)) ∧
      attrAt r.h5 [] p!"SPEC_num_headers" = some (.num (.int s.headers.length)) ∧
      attrAt r.h5 [] p!"h5py_version" = some (.str v.h5py) ∧
      attrAt r.h5 [] p!"HDF5_Version" = some (.str v.hdf5) ∧
      attrAt r.h5 [] p!"numpy_version" = some (.str v.numpy) := by
  obtain ⟨a, a0, h1, h2, h3⟩ := file_attrs hr hx hs hk h
  obtain ⟨h0, rest, f, ep, d, e1, e2, e3, e4, e5⟩ := rootAttributes_inv h1
  refine ⟨h0, rest, f, ep, d, e1, e2, e3, e4, ?_⟩
  have key := file_attr hr hx hs hk h h1
  rw [e5] at key
  refine ⟨?_, ?_, ?_, ?_, ?_, ?_, ?_, ?_, ?_⟩ <;> exact (key _ (by decide)).trans rfl

/-- C82: if the first comment of the first header names a user, this is the attribute `SPEC_user`. -/
theorem C82_user {env : Env} {reg : List HKey} (hr : reg.Perm HKey.all) (hx : SchemaNames env) {v : Versions}
    {ks : List Ref} {s : Sdf} {r : SState} (hs : Savable s) (hk : ∀ k ∈ ks, PlainText k.text)
    (h : save env reg v ks s = (r, none)) {h0 : Obj} {rest : List Obj} {c u : Str} {cs : List Str} (hh : s.headers = h0 :: rest)
    (hc : h0.comments = c :: cs) (hu : UserIn c u) : attrAt r.h5 [] p!"SPEC_user" = some (.str u) := by
  obtain ⟨a, a0, h1, h2, h3⟩ := file_attrs hr hx hs hk h
  have key := file_attr hr hx hs hk h h1 p!"SPEC_user" (by decide)
  obtain ⟨h0', rest', f, ep, d, e1, e2, e3, e4, e5⟩ := rootAttributes_inv h1
  rw [hh] at e1
  injection e1 with e1 _
  subst e1
  rw [key, e5, hc, specUser_in hu]
  rfl

/-- C82: without a comment, or if the first comment has no "User = " (and is not cut at a final "="), there is no user. -/
theorem C82_no_user {env : Env} {reg : List HKey} (hr : reg.Perm HKey.all) (hx : SchemaNames env) {v : Versions}
    {ks : List Ref} {s : Sdf} {r : SState} (hs : Savable s) (hk : ∀ k ∈ ks, PlainText k.text)
    (h : save env reg v ks s = (r, none)) {h0 : Obj} {rest : List Obj} (hh : s.headers = h0 :: rest)
    (hc : ∀ c cs, h0.comments = c :: cs → (∀ a b, c ≠ a ++ p!"User = " ++ b) ∧ c.getLast? ≠ some '=') :
    attrAt r.h5 [] p!"SPEC_user" = none := by
  obtain ⟨a, a0, h1, h2, h3⟩ := file_attrs hr hx hs hk h
  have key := file_attr hr hx hs hk h h1 p!"SPEC_user" (by decide)
  obtain ⟨h0', rest', f, ep, d, e1, e2, e3, e4, e5⟩ := rootAttributes_inv h1
  rw [hh] at e1
  injection e1 with e1 _
  subst e1
  have hu : specUser h0.comments = none := by
    cases hcs : h0.comments with
    | nil => rfl
    | cons c cs =>
      obtain ⟨g1, g2⟩ := hc c cs hcs
      have hf : findS p!"User = " c = none := by
        cases hf : findS p!"User = " c with
        | none => rfl
        | some p =>
          obtain ⟨⟨b, h4⟩, _⟩ := findS_some (by decide) hf
          refine absurd ?_ (g1 (c.take p) b)
          rw [List.append_assoc, h4, List.take_append_drop]
      show Option.map strip (splitC '=' (sliceFrom (findS p!"User = " c) c))[1]? = _
      rw [hf]
      show Option.map strip (splitC '=' (c.drop (c.length - 1)))[1]? = _
      rcases List.eq_nil_or_concat c with rfl | ⟨c', x, rfl⟩
      · rfl
      · have : (c'.concat x).drop ((c'.concat x).length - 1) = [x] := by simp
        rw [this]
        have hx : (x == '=') = false := beq_false_of_ne (fun e => g2 (by simp [e]))
        simp [splitC, splitP, hx]
  rw [key, e5, hu]
  rfl

/-- C82: there are no other attributes. -/
theorem C82_nothing_else {env : Env} {reg : List HKey} (hr : reg.Perm HKey.all) (hx : SchemaNames env) {v : Versions}
    {ks : List Ref} {s : Sdf} {r : SState} (hs : Savable s) (hk : ∀ k ∈ ks, PlainText k.text)
    (h : save env reg v ks s = (r, none)) {n : Str} (hn : attrAt r.h5 [] n ≠ none) : n ∈ fileAttrNames := by
  obtain ⟨a, a0, h1, h2, h3⟩ := file_attrs hr hx hs hk h
  by_cases hd : n = p!"default"
  · subst hd; decide
  rw [file_attr hr hx hs hk h h1 n hd] at hn
  obtain ⟨h0', rest', f, ep, d, e1, e2, e3, e4, e5⟩ := rootAttributes_inv h1
  rw [e5] at hn
  have hm : n ∈ Dict.keys ([(p!"spec2nexus_version", AVal.str v.spec2nexus), (p!"SPEC_file", .str f),
          (p!"SPEC_epoch", .num ep), (p!"SPEC_date", .str d),
          (p!"SPEC_comments", .str (join p!"\n" h0'.comments)),
          (p!"SPEC_num_headers", .num (.int s.headers.length)), (p!"h5py_version", .str v.h5py),
          (p!"HDF5_Version", .str v.hdf5), (p!"numpy_version", .str v.numpy)] ++
          (match specUser h0'.comments with
            | some u => [(p!"SPEC_user", .str u)]
            | none => [])) := Classical.byContradiction fun hm => hn ((Dict.get?_eq_none_iff _ _).2 hm)
  revert hm
  unfold fileAttrNames
  cases specUser h0'.comments <;> simp [Dict.keys] <;> grind

end

/-- a file with one scan, and a comment in its header -/
def userText (c : Str) : Str := p!"#F demo\n#E 10\n#D Wed Jun 16 18:24:00 2010\n#C " ++ c ++
  p!"\n#C again\n\n#S 1 ascan  th 0 1 2 1\n#D Wed Jun 16 18:24:36 2010\n#N 2\n#L th  I0\n0.5 1\n"

/-- the file with this comment -/
def userFile (c : Str) : Except PyErr Sdf :=
  @Sdf.openFile asciiDB saveEnv HKey.all p!"demo.dat" (fileAt (userText c) 1) (fileAt (userText c) 1)

/-- what the examples look at after a save -/
def userDemo (c : Str) : Option (Bool × Option PyErr × H5 × List (List Str)) :=
  match userFile c with
  | .error _ => none
  | .ok s =>
    let r := @save asciiDB saveEnv HKey.all saveVersions [.int 1] s
    some (@savableB asciiDB s, r.2, r.1.h5, s.headers.map (·.comments))

/-- C82: the hypotheses are met by a file with this comment -/
theorem C82_nonvacuous : letI : UniDB := asciiDB
    ∃ s r h0 rest c cs, Savable s ∧ save saveEnv HKey.all saveVersions [.int 1] s = (r, none) ∧
      s.headers = h0 :: rest ∧ h0.comments = c :: cs ∧ UserIn c p!"mary jo" := by
  letI : UniDB := asciiDB
  have hd : (match userDemo p!"fourc  User =  mary jo = x" with
    | none => false
    | some (b, e, _, l) => b && e.isNone && decide (l = [[p!"fourc  User =  mary jo = x", p!"again"]])) = true := by decide +kernel
  unfold userDemo at hd
  cases hs : userFile p!"fourc  User =  mary jo = x" with
  | error e => rw [hs] at hd; cases hd
  | ok s =>
    rw [hs] at hd
    simp only at hd
    cases hr : save saveEnv HKey.all saveVersions [.int 1] s with
    | mk r e =>
      rw [hr] at hd
      simp only [Bool.and_eq_true, decide_eq_true_eq, Option.isNone_iff_eq_none] at hd
      obtain ⟨⟨b1, b2⟩, b3⟩ := hd
      subst b2
      cases hh : s.headers with
      | nil => rw [hh] at b3; cases b3
      | cons h0 rest =>
        rw [hh] at b3
        injection b3 with b3 _
        refine ⟨s, r, h0, rest, p!"fourc  User =  mary jo = x", [p!"again"], savable_of_b b1, hr, hh, b3,
          p!"fourc  ", p!" mary jo ", p!"= x", by decide, ?_, by decide, .inr rfl, by decide⟩
        intro a b h
        have h7 : (a ++ p!"User = " ++ b).drop a.length = p!"User = " ++ b := by
          rw [List.append_assoc, List.drop_left]
        rw [← h] at h7
        generalize a.length = n at h7
        match n with
        | 0 | 1 | 2 | 3 | 4 | 5 | 6 => revert h7; simp
        | n + 7 => exact Nat.le_add_left 7 n

/-- C82: the attributes of that file; and a comment that ends with "=" makes an empty user -/
theorem C82_example : (userDemo p!"fourc  User =  mary jo = x").map (fun r => (groupAt r.2.2.1 [])) =
      some (some [(p!"spec2nexus_version", .str p!"2021.1.8"), (p!"SPEC_file", .str p!"demo"), (p!"SPEC_epoch", .num (.int 10)),
        (p!"SPEC_date", .str p!"2010-06-16T18:24:00"), (p!"SPEC_comments", .str p!"fourc  User =  mary jo = x\nagain"),
        (p!"SPEC_num_headers", .num (.int 1)), (p!"h5py_version", .str p!"3.0"), (p!"HDF5_Version", .str p!"1.12"),
        (p!"numpy_version", .str p!"1.20"), (p!"SPEC_user", .str p!"mary jo"), (p!"default", .str p!"S1")]) ∧
    (userDemo p!"T=").map (fun r => attrAt r.2.2.1 [] p!"SPEC_user") = some (some (.str [])) ∧
    (userDemo p!"demo").map (fun r => attrAt r.2.2.1 [] p!"SPEC_user") = some none := by decide +kernel

end S2N.Props
