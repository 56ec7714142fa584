import Verif.Model.Sources
import Verif.Props.MapParameters
import Verif.Props.ExecuteValues

/-!
# C84: what photo files say about themselves reaches the map
-/

namespace MaRC.Source

open MapParams Execute

variable {C : Type}

/-! ## Specification -/

/-- The value of a keyword, if it has one. -/
def Keyword.value? {α : Type} : Keyword α → Option α
  | .value a => some a
  | _ => none

/-- The text of a keyword, empty if there is none. -/
def Keyword.text (k : Keyword String) : String := k.value?.getD ""

/-- Every keyword of the file can be read, or is not there. -/
structure PhotoFile.Readable (f : PhotoFile) : Prop where
  str : ∀ k, f.str k ≠ .unreadable
  blank : f.blank ≠ .unreadable
  equinox : f.equinox ≠ .unreadable

/-- The photo files of a source image, in their order. -/
def Kind.files : Kind → List PhotoFile
  | .photo f => [f]
  | .mosaic fs => fs
  | _ => []

/-- What a source image tells for a text keyword, in the order of its photos. -/
def Kind.texts (k : StrKey) : Kind → List String
  | .degrees => if k = .bunit then ["deg"] else []
  | s => s.files.map fun f => (f.str k).text

/-- The photos of each mosaic agree about something. -/
def Agree {β : Type} (sources : List Kind) (about : PhotoFile → β) : Prop :=
  ∀ s ∈ sources, ∀ f ∈ s.files, ∀ g ∈ s.files, about f = about g

/-! ## One photo -/

/-- What `populate_parameters` of a photo makes of the parameters of its plane. -/
def told (f : PhotoFile) (p : Params) : Params :=
  { p with
    str := fun k => (f.str k).text
    bitpix := f.bitpix
    blank := f.blank.value?
    real := fun k => if k = .equinox then f.equinox.value? else p.real k }

theorem lock_plane {p : Params} (hp : p.plane ≠ 0) (k : Key) : lock p k = p := by
  simp [lock, userSupplied, hp]

theorem setStr_plane {p : Params} (hp : p.plane ≠ 0) (k : StrKey) (s : String) :
    setStr p k s = { p with str := fun j => if j = k then s else p.str j } := by
  unfold setStr; exact lock_plane (by exact hp) _

theorem setReal_plane {p : Params} (hp : p.plane ≠ 0) (k : RealKey) (s : Option Dbl) :
    setReal p k s = { p with real := fun j => if j = k then s else p.real j } := by
  unfold setReal; exact lock_plane (by exact hp) _

theorem setBlank_plane {p : Params} (hp : p.plane ≠ 0) (s : Option ℤ) :
    setBlank p s = { p with blank := s } := by
  unfold setBlank; exact lock_plane (by exact hp) _

theorem copyStr_plane (f : PhotoFile) {p : Params} (hp : p.plane ≠ 0) (k : StrKey) :
    copyStr f p k = if f.str k = .unreadable then .throw .runtimeError
      else .ok { p with str := fun j => if j = k then (f.str k).text else p.str j } := by
  unfold copyStr
  rw [show (fun s => Outcome.ok (setStr p k s)) =
    fun s => .ok { p with str := fun j => if j = k then s else p.str j } from
    funext fun s => by rw [setStr_plane hp]]
  cases h : f.str k <;> simp [Keyword.readString, Keyword.text, Keyword.value?]

private theorem read_unreadable {α : Type} :
    (Keyword.unreadable : Keyword α).read = .throw .runtimeError := rfl

set_option linter.unusedSimpArgs false in
/-- A photo's file is asked for all its keywords; if none is damaged and the image
type is one of FITS, the parameters of the plane are those of the file. -/
theorem populatePhoto_eq (f : PhotoFile) (p : Params) (hp : p.plane ≠ 0) :
    (f.Readable ∧ validBitpix f.bitpix = true → populatePhoto f p = .ok (told f p)) ∧
    (¬ (f.Readable ∧ validBitpix f.bitpix = true) → ∃ e, populatePhoto f p = .throw e) := by
  constructor
  · rintro ⟨hr, hb⟩
    have hbl : f.blank.read = .ok f.blank.value? := by
      have := hr.blank
      cases h : f.blank <;> simp_all [Keyword.read, Keyword.value?]
    have heq : f.equinox.read = .ok f.equinox.value? := by
      have := hr.equinox
      cases h : f.equinox <;> simp_all [Keyword.read, Keyword.value?]
    unfold populatePhoto
    simp only [copyStr_plane, setReal_plane, setBlank_plane, setBitpix, hp, hr.str, hb, hbl, heq,
      if_false, Outcome.bind_ok, Bool.not_true, Bool.false_eq_true, ne_eq, not_false_eq_true, told]
    congr
    funext k
    cases k <;> rfl
  · intro hn
    unfold populatePhoto
    by_cases h0 : f.str .author = .unreadable
    · exact ⟨.runtimeError, by simp only [copyStr_plane, setReal_plane, setBlank_plane, setBitpix, hp, if_false, if_true,
        Outcome.bind_ok, Outcome.bind_throw, Bool.not_true, Bool.not_false, Bool.false_eq_true, ne_eq,
        not_false_eq_true, h0]⟩
    cases h1 : validBitpix f.bitpix with
    | false => exact ⟨.invalidArgument, by simp only [copyStr_plane, setReal_plane, setBlank_plane, setBitpix, hp, if_false, if_true,
        Outcome.bind_ok, Outcome.bind_throw, Bool.not_true, Bool.not_false, Bool.false_eq_true, ne_eq,
        not_false_eq_true, h0, h1]⟩
    | true =>
    by_cases h2 : f.blank = .unreadable
    · exact ⟨.runtimeError, by simp only [copyStr_plane, setReal_plane, setBlank_plane, setBitpix, hp, if_false, if_true,
        Outcome.bind_ok, Outcome.bind_throw, Bool.not_true, Bool.not_false, Bool.false_eq_true, ne_eq,
        not_false_eq_true, read_unreadable, h0, h1, h2]⟩
    have r2 : f.blank.read = .ok f.blank.value? := by
      cases hh : f.blank <;> simp_all [Keyword.read, Keyword.value?]
    by_cases h3 : f.str .bunit = .unreadable
    · exact ⟨.runtimeError, by simp only [copyStr_plane, setReal_plane, setBlank_plane, setBitpix, hp, if_false, if_true,
        Outcome.bind_ok, Outcome.bind_throw, Bool.not_true, Bool.not_false, Bool.false_eq_true, ne_eq,
        not_false_eq_true, h0, h1, r2, h3]⟩
    by_cases h4 : f.equinox = .unreadable
    · exact ⟨.runtimeError, by simp only [copyStr_plane, setReal_plane, setBlank_plane, setBitpix, hp, if_false, if_true,
        Outcome.bind_ok, Outcome.bind_throw, Bool.not_true, Bool.not_false, Bool.false_eq_true, ne_eq,
        not_false_eq_true, read_unreadable, h0, h1, r2, h3, h4]⟩
    have r4 : f.equinox.read = .ok f.equinox.value? := by
      cases hh : f.equinox <;> simp_all [Keyword.read, Keyword.value?]
    by_cases h5 : f.str .instrument = .unreadable
    · exact ⟨.runtimeError, by simp only [copyStr_plane, setReal_plane, setBlank_plane, setBitpix, hp, if_false, if_true,
        Outcome.bind_ok, Outcome.bind_throw, Bool.not_true, Bool.not_false, Bool.false_eq_true, ne_eq,
        not_false_eq_true, h0, h1, r2, h3, r4, h5]⟩
    by_cases h6 : f.str .object = .unreadable
    · exact ⟨.runtimeError, by simp only [copyStr_plane, setReal_plane, setBlank_plane, setBitpix, hp, if_false, if_true,
        Outcome.bind_ok, Outcome.bind_throw, Bool.not_true, Bool.not_false, Bool.false_eq_true, ne_eq,
        not_false_eq_true, h0, h1, r2, h3, r4, h5, h6]⟩
    by_cases h7 : f.str .observer = .unreadable
    · exact ⟨.runtimeError, by simp only [copyStr_plane, setReal_plane, setBlank_plane, setBitpix, hp, if_false, if_true,
        Outcome.bind_ok, Outcome.bind_throw, Bool.not_true, Bool.not_false, Bool.false_eq_true, ne_eq,
        not_false_eq_true, h0, h1, r2, h3, r4, h5, h6, h7]⟩
    by_cases h8 : f.str .origin = .unreadable
    · exact ⟨.runtimeError, by simp only [copyStr_plane, setReal_plane, setBlank_plane, setBitpix, hp, if_false, if_true,
        Outcome.bind_ok, Outcome.bind_throw, Bool.not_true, Bool.not_false, Bool.false_eq_true, ne_eq,
        not_false_eq_true, h0, h1, r2, h3, r4, h5, h6, h7, h8]⟩
    by_cases h9 : f.str .reference = .unreadable
    · exact ⟨.runtimeError, by simp only [copyStr_plane, setReal_plane, setBlank_plane, setBitpix, hp, if_false, if_true,
        Outcome.bind_ok, Outcome.bind_throw, Bool.not_true, Bool.not_false, Bool.false_eq_true, ne_eq,
        not_false_eq_true, h0, h1, r2, h3, r4, h5, h6, h7, h8, h9]⟩
    by_cases h10 : f.str .telescope = .unreadable
    · exact ⟨.runtimeError, by simp only [copyStr_plane, setReal_plane, setBlank_plane, setBitpix, hp, if_false, if_true,
        Outcome.bind_ok, Outcome.bind_throw, Bool.not_true, Bool.not_false, Bool.false_eq_true, ne_eq,
        not_false_eq_true, h0, h1, r2, h3, r4, h5, h6, h7, h8, h9, h10]⟩
    exact absurd ⟨⟨fun k => by cases k <;> assumption, h2, h4⟩, h1⟩ hn

/-! ## Several photos -/

theorem told_told (f g : PhotoFile) (p : Params) : told g (told f p) = told g p := by
  simp only [told, Params.mk.injEq, true_and, and_true]
  funext k
  by_cases hk : k = .equinox <;> simp [hk]

theorem populateMosaic_ok : ∀ {fs : List PhotoFile} {p q : Params}, p.plane ≠ 0 →
    populateMosaic fs p = .ok q →
    (∀ f ∈ fs, f.Readable ∧ validBitpix f.bitpix = true) ∧
      q = (fs.getLast?.map fun f => told f p).getD p
  | [], p, q, _, h => by
    simp only [populateMosaic, Outcome.ok.injEq] at h
    simp [h]
  | f :: fs, p, q, hp, h => by
    rw [populateMosaic] at h
    obtain ⟨h1, h2⟩ := populatePhoto_eq f p hp
    by_cases hf : f.Readable ∧ validBitpix f.bitpix = true
    · rw [h1 hf, Outcome.bind_ok] at h
      obtain ⟨g1, rfl⟩ := populateMosaic_ok (p := told f p) hp h
      refine ⟨by simpa using ⟨hf, g1⟩, ?_⟩
      cases fs with
      | nil => simp
      | cons g fs => simp [List.getLast?_cons, told_told]
    · obtain ⟨e, he⟩ := h2 hf
      simp [he] at h

/-- What images without photos make of the parameters of their plane. -/
def Kind.marked (p : Params) : Kind → Params
  | .degrees => { p with str := fun j => if j = .bunit then "deg" else p.str j }
  | _ => p

/-- What a source image supplies for its plane. -/
theorem Kind.populate_ok {s : Kind} {p q : Params} (hp : p.plane ≠ 0)
    (h : s.populate p = .ok (some q)) :
    (∀ f ∈ s.files, f.Readable ∧ validBitpix f.bitpix = true) ∧
      ((∃ f, s.files.getLast? = some f ∧ q = told f p) ∨
        s.files = [] ∧ q = s.marked p) := by
  cases s with
  | photo f =>
    simp only [Kind.populate] at h
    obtain ⟨h1, h2⟩ := populatePhoto_eq f p hp
    by_cases hf : f.Readable ∧ validBitpix f.bitpix = true
    · rw [h1 hf] at h
      simp only [Outcome.bind_ok, Outcome.ok.injEq, Option.some.injEq] at h
      exact ⟨by simpa [Kind.files] using hf, .inl ⟨f, rfl, h.symm⟩⟩
    · obtain ⟨e, he⟩ := h2 hf
      simp [he] at h
  | mosaic fs =>
    simp only [Kind.populate] at h
    cases hm : populateMosaic fs p with
    | throw e => simp [hm] at h
    | ub => simp [hm] at h
    | ok r =>
      simp only [hm, Outcome.bind_ok, Outcome.ok.injEq, Option.some.injEq] at h
      subst h
      obtain ⟨h1, h2⟩ := populateMosaic_ok hp hm
      refine ⟨h1, ?_⟩
      cases hl : fs.getLast? with
      | none => rw [hl] at h2; exact .inr ⟨List.getLast?_eq_none_iff.1 hl, h2⟩
      | some f => rw [hl] at h2; exact .inl ⟨f, hl, h2⟩
  | degrees =>
    simp only [Kind.populate, Outcome.ok.injEq, Option.some.injEq] at h
    refine ⟨by simp [Kind.files], .inr ⟨rfl, ?_⟩⟩
    rw [← h, setStr_plane hp]; rfl
  | plain =>
    simp only [Kind.populate, Outcome.ok.injEq, Option.some.injEq] at h
    exact ⟨by simp [Kind.files], .inr ⟨rfl, h.symm⟩⟩

theorem supplies_kinds : ∀ {fs : List (Execute.Factory C)} {kinds : List Kind} {k : ℕ}
    {qs : List Params}, 0 < k → fs.map (·.populate) = kinds.map Kind.populate →
    Supplies fs k qs →
    List.Forall₂ (fun s q => ∃ j : ℕ, 0 < j ∧ s.populate (fresh j) = .ok (some q)) kinds qs
  | [], [], k, qs, hk, _, h => by cases h; exact .nil
  | [], s :: kinds, k, qs, hk, he, h => by simp at he
  | f :: fs, [], k, qs, hk, he, h => by simp at he
  | f :: fs, s :: kinds, k, qs, hk, he, h => by
    obtain ⟨q, rest, h1, rfl, h2⟩ := h
    simp only [List.map_cons, List.cons.injEq] at he
    rw [he.1] at h1
    exact .cons ⟨k, hk, h1⟩ (supplies_kinds (Nat.succ_pos k) he.2 h2)

theorem firstNonempty_append (a b : List String) :
    firstNonempty (a ++ b) = if firstNonempty a = "" then firstNonempty b else firstNonempty a := by
  induction a with
  | nil => simp [firstNonempty]
  | cons x a ih => by_cases hx : x = "" <;> simp [firstNonempty, hx, ih]

theorem firstSome_append {α : Type} (a b : List (Option α)) :
    firstSome (a ++ b) = (firstSome a).or (firstSome b) := by
  induction a with
  | nil => simp [firstSome]
  | cons x a ih => cases x <;> simp [firstSome, ih]

theorem firstNumber_append (a b : List (Option Dbl)) :
    firstNumber (a ++ b) = (firstNumber a).or (firstNumber b) := by
  induction a with
  | nil => simp [firstNumber]
  | cons x a ih => rcases x with _ | (_ | _ | _ | _) <;> simp [firstNumber, ih]

theorem firstNonzero_append (a b : List ℤ) :
    firstNonzero (a ++ b) = if firstNonzero a = 0 then firstNonzero b else firstNonzero a := by
  induction a with
  | nil => simp [firstNonzero]
  | cons x a ih => by_cases hx : x = 0 <;> simp [firstNonzero, hx, ih]

/-- What holds of each source image's plane holds of all planes. -/
theorem first_planes {β : Type} (first : List β → β) (join : β → β → β)
    (happ : ∀ a b, first (a ++ b) = join (first a) (first b))
    {kinds : List Kind} {qs : List Params} (tells : Kind → List β) (get : Params → β)
    (h : List.Forall₂ (fun s q => ∃ j : ℕ, 0 < j ∧ s.populate (fresh j) = .ok (some q)) kinds qs)
    (hone : ∀ s ∈ kinds, ∀ (j : ℕ) q, 0 < j → s.populate (fresh j) = .ok (some q) →
      first [get q] = first (tells s)) :
    first (qs.map get) = first (kinds.flatMap tells) := by
  induction h with
  | nil => rfl
  | @cons s q kinds qs hs _ ih =>
    obtain ⟨j, hj, hq⟩ := hs
    rw [List.map_cons, List.flatMap_cons, happ, ← hone s (.head _) j q hj hq,
      ← ih fun s hs => hone s (.tail _ hs), ← happ]
    rfl

theorem first_replicate {β : Type} (first : List β → β) (join : β → β → β)
    (happ : ∀ a b, first (a ++ b) = join (first a) (first b)) (hid : ∀ a, join a a = a)
    (n : ℕ) (v : β) : first (List.replicate (n + 1) v) = first [v] := by
  induction n with
  | zero => rfl
  | succ n ih =>
    rw [show List.replicate (n + 1 + 1) v = [v] ++ List.replicate (n + 1) v from rfl, happ, ih, hid]

/-- The photos of a mosaic that agree say what its last one says. -/
theorem first_agree {α β : Type} (first : List β → β) (join : β → β → β)
    (happ : ∀ a b, first (a ++ b) = join (first a) (first b)) (hid : ∀ a, join a a = a)
    (about : α → β) {l : List α} {f : α} (hf : l.getLast? = some f)
    (h : ∀ a ∈ l, ∀ b ∈ l, about a = about b) : first [about f] = first (l.map about) := by
  have hm := List.mem_of_getLast? hf
  obtain ⟨n, hn⟩ := Nat.exists_eq_succ_of_ne_zero
    (by simpa using List.ne_nil_of_mem hm : l.length ≠ 0)
  have : l.map about = List.replicate (n + 1) (about f) := by
    rw [List.eq_replicate_iff]
    refine ⟨by simp [hn], ?_⟩
    simp only [List.mem_map, forall_exists_index, and_imp, forall_apply_eq_imp_iff₂]
    exact fun a ha => h a ha f hm
  rw [this, first_replicate first join happ hid]

section C84

variable (F : Fp) (c : Command C) (kinds : List Kind) (p : Params)
  (hk : c.factories.map (·.populate) = kinds.map Kind.populate) (hu : c.params.plane = 0)
  (hp : populateParameters F c = .ok (some p))

include hk hu hp

/-- **C84** (texts).  A text keyword the user has not given takes the first text that
the photos say, plane after plane.  (Missing: the photos of a mosaic have to agree
about it, see `C84_mosaic_violated`.) -/
theorem C84_texts_partial (k : StrKey) (hagree : Agree kinds fun f => (f.str k).text) :
    p.str k = if c.params.locked (.str k) = false ∧ c.params.str k = ""
      then firstNonempty (kinds.flatMap (Kind.texts k)) else c.params.str k := by
  obtain ⟨qs, hs, hq⟩ := C74_parameters F c p hp
  rw [(C45_populate F hu hq).1 k]
  congr 1
  refine first_planes firstNonempty (fun a b => if a = "" then b else a) firstNonempty_append
    (Kind.texts k) (fun q => q.str k) (supplies_kinds Nat.zero_lt_one hk hs) ?_
  intro s hmem j q hj hpop
  obtain ⟨-, ⟨f, hf, rfl⟩ | ⟨hnil, rfl⟩⟩ := Kind.populate_ok (by simp [fresh]; omega) hpop
  · have e : s.texts k = s.files.map fun f => (f.str k).text := by
      cases s <;> first | rfl | simp [Kind.files] at hf
    rw [e]
    exact first_agree firstNonempty (fun a b => if a = "" then b else a) firstNonempty_append
      (fun a => by split_ifs <;> rfl) (fun f : PhotoFile => (f.str k).text) hf (hagree s hmem)
  · cases s with
    | photo f => simp [Kind.files] at hnil
    | mosaic fs => simp only [Kind.files] at hnil; simp [Kind.marked, fresh, firstNonempty, Kind.texts, Kind.files, hnil]
    | degrees =>
      by_cases hb : k = .bunit <;> simp [Kind.marked, Kind.texts, hb, firstNonempty, fresh]
    | plain => simp [Kind.marked, Kind.texts, Kind.files, firstNonempty, fresh]

/-- **C84** (equinox).  Likewise for the equinox. -/
theorem C84_equinox_partial (hagree : Agree kinds fun f => f.equinox.value?) :
    p.real .equinox = if c.params.locked (.real .equinox) = false ∧ c.params.real .equinox = none
      then firstNumber (kinds.flatMap fun s => s.files.map fun f => f.equinox.value?)
      else c.params.real .equinox := by
  obtain ⟨qs, hs, hq⟩ := C74_parameters F c p hp
  rw [(C45_populate F hu hq).2.1 .equinox]
  simp only [ne_eq, reduceCtorEq, not_false_eq_true, true_and]
  congr 1
  refine first_planes firstNumber (fun a b => a.or b) firstNumber_append
    (fun s => s.files.map fun f => f.equinox.value?) (fun q => q.real .equinox)
    (supplies_kinds Nat.zero_lt_one hk hs) ?_
  intro s hmem j q hj hpop
  obtain ⟨-, ⟨f, hf, rfl⟩ | ⟨hnil, rfl⟩⟩ := Kind.populate_ok (by simp [fresh]; omega) hpop
  · exact first_agree firstNumber (fun a b => a.or b) firstNumber_append
      (fun _ => Option.or_self) (fun f : PhotoFile => f.equinox.value?) hf (hagree s hmem)
  · cases s <;> simp [Kind.marked, hnil, fresh, firstNumber]

/-- **C84** (blank value).  Likewise for the blank value. -/
theorem C84_blank_partial (hagree : Agree kinds fun f => f.blank.value?) :
    p.blank = if c.params.locked .blank = false ∧ c.params.blank = none
      then firstSome (kinds.flatMap fun s => s.files.map fun f => f.blank.value?)
      else c.params.blank := by
  obtain ⟨qs, hs, hq⟩ := C74_parameters F c p hp
  rw [(C45_populate F hu hq).2.2]
  congr 1
  refine first_planes firstSome (fun a b => a.or b) firstSome_append
    (fun s => s.files.map fun f => f.blank.value?) (fun q => q.blank)
    (supplies_kinds Nat.zero_lt_one hk hs) ?_
  intro s hmem j q hj hpop
  obtain ⟨-, ⟨f, hf, rfl⟩ | ⟨hnil, rfl⟩⟩ := Kind.populate_ok (by simp [fresh]; omega) hpop
  · exact first_agree firstSome (fun a b => a.or b) firstSome_append
      (fun _ => Option.or_self) (fun f : PhotoFile => f.blank.value?) hf (hagree s hmem)
  · cases s <;> simp [Kind.marked, hnil, fresh, firstSome]

omit hu in
/-- **C84** (data type).  If the user gives no data type, the map has that of the
first plane with photos. -/
theorem C84_type_partial (hb : c.params.bitpix = 0) (hagree : Agree kinds PhotoFile.bitpix) :
    p.bitpix = firstNonzero (kinds.flatMap fun s => s.files.map PhotoFile.bitpix) := by
  obtain ⟨qs, hs, hq⟩ := C74_parameters F c p hp
  rw [C46_first_plane_wins F hb hq]
  refine first_planes firstNonzero (fun a b => if a = 0 then b else a) firstNonzero_append
    (fun s => s.files.map PhotoFile.bitpix) (fun q => q.bitpix)
    (supplies_kinds Nat.zero_lt_one hk hs) ?_
  intro s hmem j q hj hpop
  obtain ⟨-, ⟨f, hf, rfl⟩ | ⟨hnil, rfl⟩⟩ := Kind.populate_ok (by simp [fresh]; omega) hpop
  · exact first_agree firstNonzero (fun a b => if a = 0 then b else a) firstNonzero_append
      (fun a => by split_ifs <;> rfl) PhotoFile.bitpix hf (hagree s hmem)
  · cases s <;> simp [Kind.marked, hnil, fresh, firstNonzero]

/-- **C84** (the file).  AUTHOR, ORIGIN and OBJECT of the map that is written are what
the user or else the photos say. -/
theorem C84_header_partial (env : Env) (w w' : World)
    (h : execute F c env w = .ok (w', .returned 0)) :
    ∃ map rest, w' c.filename = some (map :: rest) ∧
      ∀ name k, (name, k) ∈ [("AUTHOR", StrKey.author), ("ORIGIN", .origin), ("OBJECT", .object)] →
        Agree kinds (fun f => (f.str k).text) →
        valueOf name map.header = strValue
          (if c.params.locked (.str k) = false ∧ c.params.str k = ""
            then firstNonempty (kinds.flatMap (Kind.texts k)) else c.params.str k) := by
  obtain ⟨map, rest, hw, -, -, h1, h2, h3, -⟩ := C74_header F c env w w' p hp h
  refine ⟨map, rest, hw, ?_⟩
  intro name k hn ha
  rw [← C84_texts_partial F c kinds p hk hu hp k ha]
  simp only [List.mem_cons, Prod.mk.injEq, List.not_mem_nil, or_false] at hn
  rcases hn with ⟨rfl, rfl⟩ | ⟨rfl, rfl⟩ | ⟨rfl, rfl⟩ <;> assumption

end C84

theorem merge_no_ub (F : Fp) (p q : Params) : merge F p q ≠ .ub := by
  have h : ∀ n, mergeBitpix p n ≠ .ub := by
    intro n
    unfold mergeBitpix setBitpix
    split_ifs <;> simp
  unfold merge
  cases hm : mergeBitpix p q.bitpix with
  | ok r => simp
  | throw e => simp
  | ub => exact absurd hm (h _)

/-- A source image with a damaged file throws, whatever the plane. -/
theorem Kind.damaged {s : Kind} {p : Params} (hp : p.plane ≠ 0)
    (hd : ∃ f ∈ s.files, ¬ (f.Readable ∧ validBitpix f.bitpix = true)) :
    ∃ e, s.populate p = .throw e := by
  have key : ∀ (fs : List PhotoFile) (p : Params), p.plane ≠ 0 →
      (∃ f ∈ fs, ¬ (f.Readable ∧ validBitpix f.bitpix = true)) →
      ∃ e, populateMosaic fs p = .throw e := by
    intro fs
    induction fs with
    | nil => rintro p _ ⟨f, hf, -⟩; simp at hf
    | cons f fs ih =>
      rintro p hp hd
      obtain ⟨h1, h2⟩ := populatePhoto_eq f p hp
      by_cases hf : f.Readable ∧ validBitpix f.bitpix = true
      · obtain ⟨g, hg, hn⟩ := hd
        rcases List.mem_cons.1 hg with rfl | hg
        · exact absurd hf hn
        · obtain ⟨e, he⟩ := ih (told f p) hp ⟨g, hg, hn⟩
          exact ⟨e, by rw [populateMosaic, h1 hf, Outcome.bind_ok, he]⟩
      · obtain ⟨e, he⟩ := h2 hf
        exact ⟨e, by rw [populateMosaic, he]; rfl⟩
  cases s with
  | photo f =>
    obtain ⟨g, hg, hn⟩ := hd
    obtain rfl : g = f := by simpa [Kind.files] using hg
    obtain ⟨e, he⟩ := (populatePhoto_eq g p hp).2 hn
    exact ⟨e, by simp [Kind.populate, he]⟩
  | mosaic fs =>
    obtain ⟨e, he⟩ := key fs p hp hd
    exact ⟨e, by simp [Kind.populate, he]⟩
  | degrees => obtain ⟨f, hf, -⟩ := hd; simp [Kind.files] at hf
  | plain => obtain ⟨f, hf, -⟩ := hd; simp [Kind.files] at hf

/-- Without damaged files a source image supplies parameters. -/
theorem Kind.undamaged {s : Kind} {p : Params} (hp : p.plane ≠ 0)
    (hd : ∀ f ∈ s.files, f.Readable ∧ validBitpix f.bitpix = true) :
    ∃ q, s.populate p = .ok (some q) := by
  have key : ∀ (fs : List PhotoFile) (p : Params), p.plane ≠ 0 →
      (∀ f ∈ fs, f.Readable ∧ validBitpix f.bitpix = true) →
      ∃ q, populateMosaic fs p = .ok q := by
    intro fs
    induction fs with
    | nil => intro p _ _; exact ⟨p, rfl⟩
    | cons f fs ih =>
      intro p hp hd
      obtain ⟨q, hq⟩ := ih (told f p) hp fun g hg => hd g (.tail _ hg)
      exact ⟨q, by rw [populateMosaic, (populatePhoto_eq f p hp).1 (hd f (.head _)),
        Outcome.bind_ok, hq]⟩
  cases s with
  | photo f =>
    exact ⟨told f p, by simp [Kind.populate, (populatePhoto_eq f p hp).1 (hd f (by simp [Kind.files]))]⟩
  | mosaic fs =>
    obtain ⟨q, hq⟩ := key fs p hp hd
    exact ⟨q, by simp [Kind.populate, hq]⟩
  | degrees => exact ⟨_, rfl⟩
  | plain => exact ⟨_, rfl⟩

/-- **C84** (damaged files).  If a keyword of a photo file exists but cannot be read,
or its image type is unknown, the command fails before anything is changed. -/
theorem C84_damaged (F : Fp) (c : Command C) (kinds : List Kind)
    (hk : c.factories.map (·.populate) = kinds.map Kind.populate)
    (hd : ∃ s ∈ kinds, ∃ f ∈ s.files, ¬ (f.Readable ∧ validBitpix f.bitpix = true))
    (env : Env) (w : World) :
    ∃ e, execute F c env w = .ok (w, .raised e) := by
  have key : ∀ (fs : List (Execute.Factory C)) (kinds : List Kind) (k : ℕ) (m : Params), 0 < k →
      fs.map (·.populate) = kinds.map Kind.populate →
      (∃ s ∈ kinds, ∃ f ∈ s.files, ¬ (f.Readable ∧ validBitpix f.bitpix = true)) →
      ∃ e, populateLoop F fs k m = .throw e := by
    intro fs
    induction fs with
    | nil =>
      intro kinds k m _ he hd
      simp only [List.map_nil, List.nil_eq, List.map_eq_nil_iff] at he
      subst he
      obtain ⟨s, hs, -⟩ := hd
      simp at hs
    | cons f fs ih =>
      intro kinds k m hk0 he hd
      cases kinds with
      | nil => simp at he
      | cons s kinds =>
        simp only [List.map_cons, List.cons.injEq] at he
        have hpl : (fresh k).plane ≠ 0 := by simp [fresh]; omega
        by_cases hs : ∃ f ∈ s.files, ¬ (f.Readable ∧ validBitpix f.bitpix = true)
        · obtain ⟨e, he'⟩ := Kind.damaged hpl hs
          exact ⟨e, by rw [populateLoop, he.1, he']; rfl⟩
        · obtain ⟨q, hq⟩ := Kind.undamaged (s := s) hpl fun f hf => by
            by_contra hh; exact hs ⟨f, hf, hh⟩
          rw [populateLoop, he.1, hq, Outcome.bind_ok]
          simp only
          cases hm : merge F m q with
          | throw e => exact ⟨e, rfl⟩
          | ub => exact absurd hm (merge_no_ub _ _ _)
          | ok m' =>
            rw [Outcome.bind_ok]
            refine ih kinds (k + 1) m' (Nat.succ_pos k) he.2 ?_
            obtain ⟨s', hs', f', hf', hn⟩ := hd
            rcases List.mem_cons.1 hs' with rfl | hs'
            · exact absurd ⟨f', hf', hn⟩ hs
            · exact ⟨s', hs', f', hf', hn⟩
  obtain ⟨e, he⟩ := key c.factories kinds 1 (fresh 0) Nat.zero_lt_one hk hd
  refine ⟨e, ?_⟩
  unfold execute populateParameters
  rw [he]
  rfl

/-- An image file of 16 bit integers and the given text keywords. -/
def examplePhoto (str : StrKey → Keyword String) : PhotoFile where
  bitpix := 16
  str := str
  blank := .value (-32768)
  equinox := .absent
  bscale := .fin 1
  bzero := .fin 0
  naxis := 2
  naxis1 := 2
  naxis2 := 2
  raw := [.fin 1, .fin 2, .fin 3, .fin 4]

/-- A map command with the given source images, and no other parameters than these. -/
def sourcesCommand (kinds : List Kind) : Command ℕ :=
  { exampleCommand (fresh 0) with factories := kinds.map fun s => ⟨s.populate, fun _ => .ok none⟩ }

theorem sourcesCommand_kinds (kinds : List Kind) :
    (sourcesCommand kinds).factories.map (·.populate) = kinds.map Kind.populate := by
  simp [sourcesCommand, Function.comp_def]

/-- The hypotheses of the theorems are met: the second plane supplies what the first
does not. -/
example : (populateParameters .ieee (sourcesCommand
    [.degrees, .photo (examplePhoto fun k => if k = .origin then .value "Here" else .absent),
      .mosaic [examplePhoto fun k => if k = .author then .value "A" else .value "There",
        examplePhoto fun k => if k = .author then .value "A" else .value "Where"]])).bind (fun p =>
      .ok (p.map fun p => ([p.str .origin, p.str .author, p.str .bunit], [p.blank, some p.bitpix]))) =
    .ok (some (["Here", "A", "deg"], [some (-32768), some 16])) := by decide +kernel

/-- What happens with mosaics: the last photo speaks for all, and if its file does not
have a keyword, those of the others are not used. -/
theorem C84_mosaic (fs : List PhotoFile) (f : PhotoFile) (k : ℕ) (hk : 0 < k)
    (h : ∀ g ∈ fs ++ [f], g.Readable ∧ validBitpix g.bitpix = true) :
    (Kind.mosaic (fs ++ [f])).populate (fresh k) = (Kind.photo f).populate (fresh k) := by
  have hp : (fresh k).plane ≠ 0 := by simp [fresh]; omega
  obtain ⟨q, hq⟩ := Kind.undamaged (s := .mosaic (fs ++ [f])) hp h
  obtain ⟨-, ⟨g, hg, rfl⟩ | ⟨hnil, -⟩⟩ := Kind.populate_ok hp hq
  · simp only [Kind.files, List.getLast?_append, List.getLast?_singleton, Option.some_or,
      Option.some.injEq] at hg
    subst hg
    rw [hq, Kind.populate, (populatePhoto_eq f _ hp).1 (h f (by simp)), Outcome.bind_ok]
  · simp [Kind.files] at hnil

/-- C84 is false of the code for mosaics: when the file of the first photo names the
object and the second does not, the map has no object. -/
theorem C84_mosaic_violated :
    (populateParameters .ieee (sourcesCommand
      [.mosaic [examplePhoto fun k => if k = .object then .value "Jupiter" else .absent,
        examplePhoto fun _ => .absent]])).bind (fun p => .ok (p.map fun p => p.str .object)) =
      .ok (some "") := by decide +kernel

/-- The hypotheses of `C84_damaged` are met. -/
example (env : Env) (w : World) : ∃ e, execute .ieee (sourcesCommand
    [.degrees, .photo (examplePhoto fun k => if k = .object then .unreadable else .absent)])
    env w = .ok (w, .raised e) := by
  refine C84_damaged _ _ _ (sourcesCommand_kinds _) ⟨_, .tail _ (.head _), _, .head _, ?_⟩ env w
  rintro ⟨hr, -⟩
  exact hr.str .object rfl

end MaRC.Source
