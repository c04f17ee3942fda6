import Verif.Model.Paths

/-!
# C46: file lookup
-/

namespace Verif

variable (lower : String → String) (ex : FPath → Bool) (cwd pkg : FPath) (contents : List FPath)

theorem scan_inl {t : FPath} {l close : List FPath} {c : FPath} (h : scan t l close = .inl c) :
    l.find? (fun x => decide (t = x ∨ t.name = x.name)) = some c := by
  induction l generalizing close with
  | nil => simp [scan] at h
  | cons a l ih =>
    simp only [scan] at h
    by_cases h1 : t = a ∨ t.name = a.name
    · rw [if_pos h1] at h; cases h; simp [List.find?, h1]
    · rw [if_neg h1] at h
      simp only [List.find?, h1, decide_false]
      split at h <;> exact ih h

theorem scan_inr {t : FPath} {l close r : List FPath} (h : scan t l close = .inr r) :
    r = close ++ l.filter (fun x => decide (t.stem = x.stem)) ∧ ∀ x ∈ l, t ≠ x ∧ t.name ≠ x.name := by
  induction l generalizing close with
  | nil => simp only [scan, Sum.inr.injEq] at h; subst h; simp
  | cons a l ih =>
    simp only [scan] at h
    by_cases h1 : t = a ∨ t.name = a.name
    · rw [if_pos h1] at h; cases h
    · rw [if_neg h1] at h
      rw [not_or] at h1
      by_cases h2 : t.stem = a.stem
      · rw [if_pos h2] at h
        obtain ⟨i1, i2⟩ := ih h
        refine ⟨by rw [i1]; simp [List.filter_cons, h2], ?_⟩
        intro x hx
        rcases List.mem_cons.1 hx with rfl | hx
        · exact h1
        · exact i2 x hx
      · rw [if_neg h2] at h
        obtain ⟨i1, i2⟩ := ih h
        refine ⟨by rw [i1]; simp [List.filter_cons, h2], ?_⟩
        intro x hx
        rcases List.mem_cons.1 hx with rfl | hx
        · exact h1
        · exact i2 x hx

/-- The path a model file would have inside the package. -/
def modelTarget (pkg file : FPath) : FPath := pkg.join (FPath.join ⟨false, ["models"]⟩ file)

/-- A relative path joined to a base lies below the base; an absolute one replaces it. -/
theorem join_under (base p : FPath) : (p.abs = true → base.join p = p) ∧ (p.abs = false → (base.join p).abs = base.abs ∧
    (base.join p).parts.take base.parts.length = base.parts ∧ (base.join p).parts.drop base.parts.length = p.parts) := by
  constructor <;> intro h <;> simp [FPath.join, h]

/-- A relative model file is looked for in the folder `models` of the package. -/
theorem modelTarget_under (pkg file : FPath) (h : file.abs = false) :
    modelTarget pkg file = ⟨pkg.abs, pkg.parts ++ "models" :: file.parts⟩ := by
  simp [modelTarget, FPath.join, h]

/-- **C46 (priority in the models folder).** The exact path if it exists; otherwise the first entry with the requested
file name; otherwise, among the entries with the same stem, the first `.csv` file, or the first of them if there is none;
`FileNotFoundError` exactly when no entry has the stem either. -/
theorem getModel_spec (file : FPath) :
    let t := modelTarget pkg file
    let same := contents.find? (fun x => decide (x.name = t.name))
    let close := contents.filter (fun x => decide (x.stem = t.stem))
    getModel lower ex pkg contents file =
      if ex t then .path t else
      match same with
      | some c => .path c
      | none => match close.find? (fun x => decide (lower x.suffix = ".csv")), close with
        | some c, _ => .path c
        | none, c :: _ => .path c
        | none, [] => .notFound := by
  intro t same close
  have ht : pkg.join (FPath.join ⟨false, ["models"]⟩ file) = t := rfl
  simp only [getModel, ht]
  by_cases he : ex t = true
  · simp [he]
  · simp only [he, if_false, Bool.false_eq_true]
    have hfeq : ∀ x : FPath, (t = x ∨ t.name = x.name) ↔ x.name = t.name := by
      intro x
      constructor
      · rintro (rfl | h)
        · rfl
        · exact h.symm
      · intro h; exact Or.inr h.symm
    cases hs : scan t contents [] with
    | inl c =>
      have h1 := scan_inl hs
      have h2 : same = some c := by
        rw [← h1]; simp only [same]; congr 1; funext x; simp [hfeq]
      simp [h2]
    | inr r =>
      obtain ⟨h1, h2⟩ := scan_inr hs
      have hr : r = close := by
        rw [h1, List.nil_append]; simp only [close]; congr 1; funext x; simp [eq_comm]
      have hn : same = none := by
        simp only [same, List.find?_eq_none]
        intro x hx; simpa using fun e => (h2 x hx).2 e.symm
      subst hr
      simp only [hn]
      cases hc : close with
      | nil => simp [bestMatch]
      | cons c cs =>
        simp only [bestMatch]
        cases hf : (c :: cs).find? (fun x => decide (lower x.suffix = ".csv")) <;> simp

/-- **C46 (an existing path).** If the contents of the models folder exist, `get_model` only returns existing paths. -/
theorem getModel_exists (hc : ∀ c ∈ contents, ex c = true) (file q : FPath)
    (h : getModel lower ex pkg contents file = .path q) : ex q = true := by
  rw [getModel_spec] at h
  split at h
  · cases h; assumption
  · split at h
    · rename_i c hf
      cases h; exact hc _ (List.mem_of_find?_eq_some hf)
    · split at h
      · rename_i c _ hf
        cases h; exact hc _ (List.mem_of_mem_filter (List.mem_of_find?_eq_some hf))
      · rename_i c l _ hcl
        cases h
        have : q ∈ contents.filter (fun x => decide (x.stem = (modelTarget pkg file).stem)) := by rw [hcl]; simp
        exact hc _ (List.mem_of_mem_filter this)
      · cases h

/-- **C46 (priority of `get_path`).** As given, then relative to the working directory, then inside the package, then among
the models: the first existing one is returned. -/
theorem getPath_spec (hc : ∀ c ∈ contents, ex c = true) (p : FPath) :
    getPath lower ex cwd pkg contents p =
      if ex p then .path p
      else if ex (cwd.join p) then .path (cwd.join p)
      else if ex (pkg.join p) then .path (pkg.join p)
      else getModel lower ex pkg contents p := by
  have hm := getModel_exists lower ex pkg contents hc p
  unfold getPath
  cases h1 : ex p
  · cases h2 : ex (cwd.join p)
    · cases h3 : ex (pkg.join p)
      · cases hg : getModel lower ex pkg contents p with
        | path q => simp [h2, h3, hm q hg]
        | notFound => simp [h2, h3]
      · simp [h2, h3]
    · simp [h2]
  · simp [h1]

/-- **C46 (result exists).** A returned path exists. -/
theorem getPath_exists (p q : FPath) (h : getPath lower ex cwd pkg contents p = .path q) : ex q = true := by
  have key : ∀ r : FPath, (if ex r then Found.path r else .notFound) = .path q → ex q = true := by
    intro r hr
    by_cases he : ex r = true
    · rw [if_pos he] at hr; cases hr; exact he
    · rw [if_neg he] at hr; cases hr
  exact key _ h

/-- **C46 (absolute paths).** An absolute path is only ever answered by itself or by a models entry with its stem. -/
theorem getPath_absolute (hc : ∀ c ∈ contents, ex c = true) (p q : FPath) (ha : p.abs = true)
    (h : getPath lower ex cwd pkg contents p = .path q) : q = p ∨ (q ∈ contents ∧ q.stem = p.stem) := by
  rw [getPath_spec lower ex cwd pkg contents hc] at h
  have hj : ∀ b : FPath, b.join p = p := by intro b; simp [FPath.join, ha]
  have ht : modelTarget pkg p = p := by simp [modelTarget, hj]
  simp only [hj] at h
  by_cases he : ex p = true
  · simp only [he, if_true, Found.path.injEq] at h; exact Or.inl h.symm
  · simp only [he, if_false, Bool.false_eq_true] at h
    rw [getModel_spec] at h
    simp only [ht, he, if_false, Bool.false_eq_true] at h
    right
    split at h
    · rename_i c hf
      cases h
      have := List.find?_some hf
      simp only [decide_eq_true_eq] at this
      exact ⟨List.mem_of_find?_eq_some hf, by simp [FPath.stem, this]⟩
    · split at h
      · rename_i c _ hf
        cases h
        have := List.mem_of_find?_eq_some hf
        exact ⟨List.mem_of_mem_filter this, by simpa using (List.mem_filter.1 this).2⟩
      · rename_i c l _ hcl
        cases h
        have hq : q ∈ contents.filter (fun x => decide (x.stem = p.stem)) := by rw [hcl]; simp
        exact ⟨List.mem_of_mem_filter hq, by simpa using (List.mem_filter.1 hq).2⟩
      · cases h

/-- `a/b/x.tar.gz` has stem `x.tar` and suffix `.gz`; a leading or final dot does not count. -/
example : stemSuffix "x.tar.gz" = ("x.tar", ".gz") ∧ stemSuffix ".hid" = (".hid", "") ∧ stemSuffix "a." = ("a.", "") := by
  decide +kernel

/-- Stem and suffix of a name always recompose to the name. -/
theorem splitDot_append {l a b : List Char} (h : splitDot l = some (a, b)) : a ++ '.' :: b = l := by
  induction l generalizing a b with
  | nil => simp [splitDot] at h
  | cons c cs ih =>
    simp only [splitDot] at h
    split at h
    · rename_i x y hs
      cases h
      simp [ih hs]
    · split at h
      · cases h; subst_vars; rfl
      · cases h

/-- The suffix contains no further dot. -/
theorem splitDot_last {l a b : List Char} (h : splitDot l = some (a, b)) : '.' ∉ b := by
  have hn : ∀ l : List Char, splitDot l = none → '.' ∉ l := by
    intro l
    induction l with
    | nil => simp
    | cons c cs ih =>
      intro h
      simp only [splitDot] at h
      split at h
      · cases h
      · split at h
        · cases h
        · rename_i hs hc
          simp only [List.mem_cons, not_or]
          exact ⟨fun e => hc e.symm, ih hs⟩
  induction l generalizing a b with
  | nil => simp [splitDot] at h
  | cons c cs ih =>
    simp only [splitDot] at h
    split at h
    · rename_i x y hs
      cases h
      exact ih hs
    · rename_i hs
      split at h
      · cases h; exact hn _ hs
      · cases h

/-- **C46 (stem and suffix).** They recompose to the file name, and a suffix is empty or a dot followed by dot-free text. -/
theorem stemSuffix_spec (n : String) :
    (stemSuffix n).1 ++ (stemSuffix n).2 = n ∧
    ((stemSuffix n).2 = "" ∨ ∃ b, (stemSuffix n).2.toList = '.' :: b ∧ b ≠ [] ∧ '.' ∉ b ∧ (stemSuffix n).1 ≠ "") := by
  unfold stemSuffix
  cases h : splitDot n.toList with
  | none => simp
  | some ab =>
    obtain ⟨a, b⟩ := ab
    by_cases hab : a = [] ∨ b = []
    · simp [hab]
    · simp only [hab, if_false]
      have h1 := splitDot_append h
      rw [not_or] at hab
      refine ⟨?_, Or.inr ⟨b, by simp, hab.2, splitDot_last h, ?_⟩⟩
      · rw [← String.ofList_append, h1]; simp
      · intro e
        have := congrArg String.toList e
        simp at this
        exact hab.1 this

private def exContents : List FPath :=
  [⟨true, ["pkg", "models", "engines", "turbofan.txt"]⟩, ⟨true, ["pkg", "models", "engines", "turbofan.csv"]⟩,
   ⟨true, ["pkg", "models", "aircraft", "large.csv"]⟩]

example : getPath id (fun p => p ∈ exContents) ⟨true, ["home"]⟩ ⟨true, ["pkg"]⟩ exContents ⟨false, ["turbofan.deck"]⟩ =
    .path ⟨true, ["pkg", "models", "engines", "turbofan.csv"]⟩ ∧
    getPath id (fun p => p ∈ exContents) ⟨true, ["home"]⟩ ⟨true, ["pkg"]⟩ exContents ⟨false, ["none.csv"]⟩ = .notFound := by
  decide +kernel

end Verif
