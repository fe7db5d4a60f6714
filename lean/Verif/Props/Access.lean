import Verif.Proofs.LogMain
import Verif.Proofs.LogErase
import Verif.Props.Schedule

/-! Properties C55 and C56: memory accesses and cost of a call. -/

namespace Props
open Rust Rust.Res Spec Spec.Lyra2 Proofs.Log

/-! ## C55 -/

theorem stars_length (pick : Pick) (C : Nat) (V : Wander) (rows : List Nat) : (Access.stars pick C V rows).length = rows.length := by
  induction rows generalizing V with
  | nil => rfl
  | cons x xs ih => rw [Access.stars, List.length_cons, ih, List.length_cons]

theorem stars_mem {pick : Pick} {P : Nat → Prop} (h : ∀ s w, P (pick s w).1) (C : Nat) (V : Wander) (rows : List Nat) :
    ∀ r ∈ Access.stars pick C V rows, P r := by
  induction rows generalizing V with
  | nil => intro r hr; cases hr
  | cons x xs ih =>
    intro r hr
    rw [Access.stars, List.mem_cons] at hr
    rcases hr with rfl | hr
    · exact h _ _
    · exact ih _ r hr

theorem mask_lt {R : Nat} (hR : 1 ≤ R) (x : Nat) : x &&& (R - 1) < R := by
  have : x &&& (R - 1) ≤ R - 1 := Nat.and_le_right
  omega

theorem choices_length (R C : Nat) (V : Wander) (rows : List Nat) : (Access.choices R C V rows).length = rows.length := by
  induction rows generalizing V with
  | nil => rfl
  | cons x xs ih => rw [Access.choices, List.length_cons, ih, List.length_cons]

theorem choices_mem {R : Nat} (hR : 1 ≤ R) (C : Nat) (V : Wander) (rows : List Nat) :
    ∀ c ∈ Access.choices R C V rows, c.1 < 16 ∧ c.2.1 < 16 ∧ c.2.2 < R := by
  induction rows generalizing V with
  | nil => intro r hr; cases hr
  | cons x xs ih =>
    intro r hr
    rw [Access.choices, List.mem_cons] at hr
    rcases hr with rfl | hr
    · exact ⟨Nat.mod_lt _ (by decide), Nat.mod_lt _ (by decide), mask_lt hR _⟩
    · exact ih _ r hr

/-- **C55** (0) The log is an observation only: for every input, accepted or not, and whatever was logged before, the logged
functions return, panic or run forever as the functions they log, with the same key and the same panic. -/
theorem C55_same_outcome (p : Profile) (k T R C : U64) (pwd salt : List U8) (log : List Event) :
    ((Model.Log.lyra2 p k pwd salt T R C log >>= fun x => pure x.1) = Model.Lyra2.lyra2 p k pwd salt T R C) ∧
      (Model.Log.lyra2mod p k pwd salt T R C log >>= fun x => pure x.1) = Model.Lyra2mod.lyra2mod p k pwd salt T R C :=
  ⟨lyra2_erases p k pwd salt T R C log, lyra2mod_erases p k pwd salt T R C log⟩

/-- **C55** (i) What an accepted call of `lyra2` does to its memory: a part that depends on the public parameters only, then the
row operations of the schedule, then the wrap-up; the values of `row*` are those of the specification, one for each row
operation, and they are rows of the matrix. The log belongs to the run that computes the key. -/
theorem C55_access_pattern (p : Profile) (k T R C : U64) (pwd salt : List U8) (h : Accepts k pwd.length salt.length T R C) :
    ∃ out stars, (Model.Lyra2.lyra2 p k pwd salt T R C).Returns out ∧
      (Model.Log.lyra2 p k pwd salt T R C []).Returns
        (out, Access.call k.toNat pwd.length salt.length T.toNat R.toNat C.toNat stars) ∧
      stars = Access.stars (Pick.mask R.toNat) C.toNat
        (Access.afterSetup (crateWords k.toNat pwd salt T.toNat R.toNat C.toNat) R.toNat C.toNat) (Access.rows R.toNat T.toNat) ∧
      stars.length = (Access.rows R.toNat T.toNat).length ∧ ∀ r ∈ stars, r < R.toNat := by
  have hr := Proofs.Lyra2.lyra2_ok p k T R C pwd salt (domain_iff.2 h)
  refine ⟨_, _, hr, ?_, rfl, stars_length _ _ _ _, stars_mem (P := (· < R.toNat)) (fun s w => ?_) _ _ _⟩
  rotate_left
  · exact mask_lt (show 1 ≤ R.toNat by have := h.2.1; omega) _
  have := lyra2_log p k T R C pwd salt (domain_iff.2 h) _ hr []
  rw [List.nil_append] at this
  exact this

/-- **C55** (ii) The same for `lyra2mod`: each row operation is preceded by two reads of the sponge state, at positions below
sixteen that are computed from the state. -/
theorem C55_access_pattern_mod (p : Profile) (k T R C : U64) (pwd salt : List U8) (h : Accepts k pwd.length salt.length T R C) :
    ∃ out choices, (Model.Lyra2mod.lyra2mod p k pwd salt T R C).Returns out ∧
      (Model.Log.lyra2mod p k pwd salt T R C []).Returns
        (out, Access.callRev3 k.toNat pwd.length salt.length T.toNat R.toNat C.toNat choices) ∧
      choices = Access.choices R.toNat C.toNat
        (Access.afterSetup (crateWords k.toNat pwd salt T.toNat R.toNat C.toNat) R.toNat C.toNat) (Access.rows R.toNat T.toNat) ∧
      choices.length = (Access.rows R.toNat T.toNat).length ∧
      ∀ c ∈ choices, c.1 < 16 ∧ c.2.1 < 16 ∧ c.2.2 < R.toNat := by
  have hr := Proofs.Lyra2.lyra2mod_ok p k T R C pwd salt (domain_iff.2 h)
  refine ⟨_, _, hr, ?_, rfl, choices_length _ _ _ _, choices_mem (by have := h.2.1; omega) _ _ _⟩
  have := lyra2mod_log p k T R C pwd salt (domain_iff.2 h) _ hr []
  rw [List.nil_append] at this
  exact this

/-! The kinds of events do not depend on the choices. -/

theorem each_kind {f g : Nat → List Event} (h : ∀ w, (f w).map Event.kind = (g w).map Event.kind) :
    (Access.each f).map Event.kind = (Access.each g).map Event.kind := by
  unfold Access.each
  rw [List.map_flatMap, List.map_flatMap]
  simp only [h]

theorem wanderRow_kind (C prev star row prev' star' row' : Nat) :
    (Access.wanderRow C prev star row).map Event.kind = (Access.wanderRow C prev' star' row').map Event.kind := by
  unfold Access.wanderRow Access.columns
  rw [List.map_flatMap, List.map_flatMap]
  congr 1

theorem wander_kind (C prev prev' : Nat) (rows stars stars' : List Nat) (h : stars.length = rows.length)
    (h' : stars'.length = rows.length) :
    (Access.wander C prev rows stars).map Event.kind = (Access.wander C prev' rows stars').map Event.kind := by
  induction rows generalizing prev prev' stars stars' with
  | nil => rfl
  | cons x xs ih =>
    match stars, stars', h, h' with
    | a :: as, b :: bs, h, h' =>
      rw [Access.wander, Access.wander, List.map_append, List.map_append, wanderRow_kind C prev a x prev' b x,
        ih x x as bs (by simpa using h) (by simpa using h')]

theorem wanderRev3_kind (C prev prev' : Nat) (rows : List Nat) (cs cs' : List (Nat × Nat × Nat)) (h : cs.length = rows.length)
    (h' : cs'.length = rows.length) :
    (Access.wanderRev3 C prev rows cs).map Event.kind = (Access.wanderRev3 C prev' rows cs').map Event.kind := by
  induction rows generalizing prev prev' cs cs' with
  | nil => rfl
  | cons x xs ih =>
    match cs, cs', h, h' with
    | (i, j, a) :: as, (i', j', b) :: bs, h, h' =>
      rw [Access.wanderRev3, Access.wanderRev3, List.map_append, List.map_append, List.map_append, List.map_append,
        wanderRow_kind C prev a x prev' b x, ih x x as bs (by simpa using h) (by simpa using h')]
      rfl

theorem wrapUp_kind (N C star star' k : Nat) :
    (Access.wrapUp N C star k).map Event.kind = (Access.wrapUp N C star' k).map Event.kind := rfl

/-- **C55** (iii) Passwords and salts of the same lengths, with the same parameters: the two runs access the same positions in
the same order until the end of the setup phase, and after it they still perform the same sequence of kinds of operations - only
positions (and the length of the last copy) can differ. -/
theorem C55_public_part (p : Profile) (k T R C : U64) (pwd salt pwd' salt' : List U8) (h : Accepts k pwd.length salt.length T R C)
    (hp : pwd'.length = pwd.length) (hs : salt'.length = salt.length) :
    ∃ out out' pre log log', (Model.Log.lyra2 p k pwd salt T R C []).Returns (out, pre ++ log) ∧
      (Model.Log.lyra2 p k pwd' salt' T R C []).Returns (out', pre ++ log') ∧ log.map Event.kind = log'.map Event.kind ∧
      pre = Access.beforeWander pwd.length salt.length R.toNat C.toNat := by
  obtain ⟨out, stars, -, h1, -, h2, -⟩ := C55_access_pattern p k T R C pwd salt h
  obtain ⟨out', stars', -, h1', -, h2', -⟩ := C55_access_pattern p k T R C pwd' salt' (by rw [hp, hs]; exact h)
  rw [hp, hs] at h1'
  unfold Access.call at h1 h1'
  rw [List.append_assoc] at h1 h1'
  refine ⟨out, out', _, _, _, h1, h1', ?_, rfl⟩
  rw [List.map_append, List.map_append, wander_kind _ _ _ _ _ _ h2 h2']
  rfl

/-- **C55** (iv) The same for `lyra2mod`. -/
theorem C55_public_part_mod (p : Profile) (k T R C : U64) (pwd salt pwd' salt' : List U8)
    (h : Accepts k pwd.length salt.length T R C) (hp : pwd'.length = pwd.length) (hs : salt'.length = salt.length) :
    ∃ out out' pre log log', (Model.Log.lyra2mod p k pwd salt T R C []).Returns (out, pre ++ log) ∧
      (Model.Log.lyra2mod p k pwd' salt' T R C []).Returns (out', pre ++ log') ∧ log.map Event.kind = log'.map Event.kind ∧
      pre = Access.beforeWander pwd.length salt.length R.toNat C.toNat := by
  obtain ⟨out, cs, -, h1, -, h2, -⟩ := C55_access_pattern_mod p k T R C pwd salt h
  obtain ⟨out', cs', -, h1', -, h2', -⟩ := C55_access_pattern_mod p k T R C pwd' salt' (by rw [hp, hs]; exact h)
  rw [hp, hs] at h1'
  unfold Access.callRev3 at h1 h1'
  rw [List.append_assoc] at h1 h1'
  refine ⟨out, out', _, _, _, h1, h1', ?_, rfl⟩
  rw [List.map_append, List.map_append, wanderRev3_kind _ _ _ _ _ _ h2 h2']
  rfl

/-! The positions do depend on the choices. -/

theorem length_of_kind {l l' : List Event} (h : l.map Event.kind = l'.map Event.kind) : l.length = l'.length := by
  have := congrArg List.length h
  rwa [List.length_map, List.length_map] at this

theorem wanderRow_star {C prev a b row : Nat} (hC : 0 < C) (h : Access.wanderRow C prev a row = Access.wanderRow C prev b row) :
    a = b := by
  obtain ⟨n, rfl⟩ : ∃ n, C = n + 1 := ⟨C - 1, by omega⟩
  have h1 := congrArg (fun l => l[1]?) h
  unfold Access.wanderRow Access.columns at h1
  rw [List.range_succ_eq_map, List.flatMap_cons, List.flatMap_cons] at h1
  have h2 : Event.read (Access.word (n + 1) a 0 0) = Event.read (Access.word (n + 1) b 0 0) := Option.some.inj h1
  injection h2 with h2
  unfold Access.word at h2
  exact Nat.eq_of_mul_eq_mul_left hC (by omega)

theorem wander_stars {C : Nat} (hC : 0 < C) (prev : Nat) (rows stars stars' : List Nat) (h : stars.length = rows.length)
    (h' : stars'.length = rows.length) (he : Access.wander C prev rows stars = Access.wander C prev rows stars') : stars = stars' := by
  induction rows generalizing prev stars stars' with
  | nil => rw [List.length_eq_zero_iff.mp h, List.length_eq_zero_iff.mp h']
  | cons x xs ih =>
    match stars, stars', h, h' with
    | a :: as, b :: bs, h, h' =>
      rw [Access.wander, Access.wander] at he
      obtain ⟨h1, h2⟩ := List.append_inj he (length_of_kind (wanderRow_kind _ _ _ _ _ _ _))
      rw [wanderRow_star hC h1, ih x as bs (by simpa using h) (by simpa using h') h2]

theorem wanderRev3_choices {C : Nat} (hC : 0 < C) (prev : Nat) (rows : List Nat) (cs cs' : List (Nat × Nat × Nat))
    (h : cs.length = rows.length) (h' : cs'.length = rows.length)
    (he : Access.wanderRev3 C prev rows cs = Access.wanderRev3 C prev rows cs') : cs = cs' := by
  induction rows generalizing prev cs cs' with
  | nil => rw [List.length_eq_zero_iff.mp h, List.length_eq_zero_iff.mp h']
  | cons x xs ih =>
    match cs, cs', h, h' with
    | (i, j, a) :: as, (i', j', b) :: bs, h, h' =>
      rw [Access.wanderRev3, Access.wanderRev3, List.append_assoc, List.append_assoc] at he
      obtain ⟨h0, he⟩ := List.append_inj he rfl
      obtain ⟨h1, h2⟩ := List.append_inj he (length_of_kind (wanderRow_kind _ _ _ _ _ _ _))
      have e1 : i = i' := by injection h0 with h0; injection h0
      have e2 : j = j' := by injection h0 with _ h0; injection h0 with h0; injection h0
      rw [wanderRow_star hC h1, e1, e2, ih x as bs (by simpa using h) (by simpa using h') h2]

theorem Accepts.cols {k T R C : U64} {a b : Nat} (h : Accepts k a b T R C) : 0 < C.toNat := by
  have := h.2.2.2.2
  by_contra hc
  rw [show C.toNat = 0 by omega] at this
  omega

/-- **C55** (v) Conversely the accesses reveal every choice of `row*`: two calls with the same parameters and input lengths
leave the same log exactly when all their choices agree. -/
theorem C55_log_reveals (p : Profile) (k T R C : U64) (pwd salt pwd' salt' : List U8) (h : Accepts k pwd.length salt.length T R C)
    (hp : pwd'.length = pwd.length) (hs : salt'.length = salt.length) :
    ∃ out out' log log', (Model.Log.lyra2 p k pwd salt T R C []).Returns (out, log) ∧
      (Model.Log.lyra2 p k pwd' salt' T R C []).Returns (out', log') ∧
      (log = log' ↔
        Access.stars (Pick.mask R.toNat) C.toNat
          (Access.afterSetup (crateWords k.toNat pwd salt T.toNat R.toNat C.toNat) R.toNat C.toNat) (Access.rows R.toNat T.toNat) =
        Access.stars (Pick.mask R.toNat) C.toNat
          (Access.afterSetup (crateWords k.toNat pwd' salt' T.toNat R.toNat C.toNat) R.toNat C.toNat)
          (Access.rows R.toNat T.toNat)) := by
  obtain ⟨out, stars, -, h1, e, h2, -⟩ := C55_access_pattern p k T R C pwd salt h
  obtain ⟨out', stars', -, h1', e', h2', -⟩ := C55_access_pattern p k T R C pwd' salt' (by rw [hp, hs]; exact h)
  rw [hp, hs] at h1'
  refine ⟨out, out', _, _, h1, h1', ?_⟩
  rw [← e, ← e']
  constructor
  · intro he
    unfold Access.call at he
    rw [List.append_assoc, List.append_assoc] at he
    have he := List.append_cancel_left he
    have := List.append_inj he (length_of_kind (wander_kind _ _ _ _ _ _ h2 h2'))
    exact wander_stars (Accepts.cols h) _ _ _ _ h2 h2' this.1
  · rintro rfl
    rfl

/-- **C55** (vi) The same for `lyra2mod`, with the positions in the state as part of the choices. -/
theorem C55_log_reveals_mod (p : Profile) (k T R C : U64) (pwd salt pwd' salt' : List U8)
    (h : Accepts k pwd.length salt.length T R C) (hp : pwd'.length = pwd.length) (hs : salt'.length = salt.length) :
    ∃ out out' log log', (Model.Log.lyra2mod p k pwd salt T R C []).Returns (out, log) ∧
      (Model.Log.lyra2mod p k pwd' salt' T R C []).Returns (out', log') ∧
      (log = log' ↔
        Access.choices R.toNat C.toNat
          (Access.afterSetup (crateWords k.toNat pwd salt T.toNat R.toNat C.toNat) R.toNat C.toNat) (Access.rows R.toNat T.toNat) =
        Access.choices R.toNat C.toNat
          (Access.afterSetup (crateWords k.toNat pwd' salt' T.toNat R.toNat C.toNat) R.toNat C.toNat)
          (Access.rows R.toNat T.toNat)) := by
  obtain ⟨out, cs, -, h1, e, h2, -⟩ := C55_access_pattern_mod p k T R C pwd salt h
  obtain ⟨out', cs', -, h1', e', h2', -⟩ := C55_access_pattern_mod p k T R C pwd' salt' (by rw [hp, hs]; exact h)
  rw [hp, hs] at h1'
  refine ⟨out, out', _, _, h1, h1', ?_⟩
  rw [← e, ← e']
  constructor
  · intro he
    unfold Access.callRev3 at he
    rw [List.append_assoc, List.append_assoc] at he
    have he := List.append_cancel_left he
    have := List.append_inj he (length_of_kind (wanderRev3_kind _ _ _ _ _ _ h2 h2'))
    exact wanderRev3_choices (Accepts.cols h) _ _ _ _ h2 h2' this.1
  · rintro rfl
    rfl

/-- The first choice of `row*` of a call with no salt, one pass, 4 rows, 1 column and a key of 1 byte. -/
def firstStar (pwd : List U8) : Nat := (Pick.mask 4 (Access.afterSetup (crateWords 1 pwd [] 1 4 1) 4 1).s 0).1

set_option maxRecDepth 100000 in
theorem first_star : firstStar [0, 0, 0, 0, 0, 0, 0, 0] ≠ firstStar [2, 0, 0, 0, 0, 0, 0, 0] := by decide +kernel

/-- **C55** (vii) And the choices do depend on the password: there are two passwords of the same length for which the positions
accessed differ. -/
theorem C55_depends_on_password : ∃ (k T R C : U64) (pwd pwd' : List U8), pwd.length = pwd'.length ∧
    Accepts k pwd.length 0 T R C ∧ ∀ p, ∃ out out' log log', (Model.Log.lyra2 p k pwd [] T R C []).Returns (out, log) ∧
      (Model.Log.lyra2 p k pwd' [] T R C []).Returns (out', log') ∧ log ≠ log' := by
  have ha : Accepts 1 ([0, 0, 0, 0, 0, 0, 0, 0] : List U8).length ([] : List U8).length 1 4 1 := by unfold Accepts isizeMax; decide
  refine ⟨1, 1, 4, 1, [0, 0, 0, 0, 0, 0, 0, 0], [2, 0, 0, 0, 0, 0, 0, 0], rfl, ha, fun p => ?_⟩
  obtain ⟨out, out', log, log', h1, h2, h3⟩ := C55_log_reveals p 1 1 4 1 [0, 0, 0, 0, 0, 0, 0, 0] [] [2, 0, 0, 0, 0, 0, 0, 0] []
    ha rfl rfl
  refine ⟨out, out', log, log', h1, h2, fun he => first_star ?_⟩
  have := h3.mp he
  have hr : Access.rows 4 1 = [0, 1, 2, 3] := by decide
  rw [show (4 : U64).toNat = 4 from rfl, show (1 : U64).toNat = 1 from rfl, hr] at this
  rw [Access.stars, Access.stars] at this
  exact (List.cons.inj this).1

/-! Positions. -/

theorem word_lt {R C r c w : Nat} (hr : r < R) (hc : c < C) (hw : w < 12) : Access.word C r c w < 12 * (R * C) := by
  unfold Access.word
  have : C * r + C ≤ R * C := by
    calc C * r + C = (r + 1) * C := by ring
      _ ≤ R * C := Nat.mul_le_mul_right _ hr
  omega

/-- All events stay inside. -/
def AllWithin (n : Nat) (l : List Event) : Prop := ∀ e ∈ l, e.Within n

theorem AllWithin.append {n : Nat} {l l' : List Event} (h : AllWithin n l) (h' : AllWithin n l') : AllWithin n (l ++ l') := by
  intro e he
  rcases List.mem_append.mp he with he | he
  · exact h e he
  · exact h' e he

theorem AllWithin.flat {n m : Nat} {g : Nat → List Event} (h : ∀ i, i < m → AllWithin n (g i)) :
    AllWithin n ((List.range m).flatMap g) := by
  intro e he
  obtain ⟨i, hi, he⟩ := List.mem_flatMap.mp he
  exact h i (List.mem_range.mp hi) e he

theorem AllWithin.one {n : Nat} {e : Event} (h : e.Within n) : AllWithin n [e] := by
  intro e' he
  rw [List.mem_singleton.mp he]
  exact h

theorem AllWithin.two {n : Nat} {e e' : Event} (h : e.Within n) (h' : e'.Within n) : AllWithin n [e, e'] :=
  .append (.one h) (.one h')

section within
variable {R C : Nat}

theorem row0_within (hR : 0 < R) : AllWithin (12 * (R * C)) (Access.row0 C) :=
  .flat fun _ hc => .append (.flat fun _ hw => .one (word_lt hR (by omega) hw)) (.one trivial)

theorem row1_within (hR : 1 < R) : AllWithin (12 * (R * C)) (Access.row1 C) :=
  .flat fun _ hc => .append (.append (.flat fun _ hw => .one (word_lt (by omega) hc hw)) (.one trivial))
    (.flat fun _ hw => .two (word_lt (by omega) hc hw) (word_lt hR (by omega) hw))

theorem setupRow_within {prev star row : Nat} (hp : prev < R) (hs : star < R) (hr : row < R) :
    AllWithin (12 * (R * C)) (Access.setupRow C prev star row) :=
  .flat fun _ hc => .append (.append (.append (.flat fun _ hw => .two (word_lt hp hc hw) (word_lt hs hc hw)) (.one trivial))
    (.flat fun _ hw => .two (word_lt hp hc hw) (word_lt hr (by omega) hw)))
    (.flat fun _ hw => .two (word_lt hs hc hw) (word_lt hs hc hw))

theorem wanderRow_within {prev star row : Nat} (hp : prev < R) (hs : star < R) (hr : row < R) :
    AllWithin (12 * (R * C)) (Access.wanderRow C prev star row) :=
  .flat fun _ hc => .append (.append (.append (.flat fun _ hw => .two (word_lt hp hc hw) (word_lt hs hc hw)) (.one trivial))
    (.flat fun _ hw => .two (word_lt hr hc hw) (word_lt hr hc hw)))
    (.flat fun _ hw => .two (word_lt hs hc hw) (word_lt hs hc hw))

theorem beforeWander_within {a b : Nat} (hR : 3 ≤ R) (hi : 8 * nBlocks (a + b) ≤ 12 * (R * C)) :
    AllWithin (12 * (R * C)) (Access.beforeWander a b R C) := by
  have hb : 0 < nBlocks (a + b) := by unfold nBlocks; omega
  have hw : a / 8 + b / 8 + 7 ≤ 8 * nBlocks (a + b) := by unfold nBlocks; omega
  refine .append (.append (.append (fun e he => ?_) (.two ?_ ?_)) (.flat fun i hi => .two ?_ trivial))
    (.append (.append (row0_within (by omega)) (row1_within (by omega))) (.flat fun i hi => ?_))
  · obtain ⟨i, hi, rfl⟩ := List.mem_map.mp he
    have := List.mem_range.mp hi
    show i < _
    omega
  · show 8 * _ - 1 < _
    omega
  · show 8 * _ - 1 < _
    omega
  · show 8 * i < _ ∧ 8 * i + (12 * (R * C) - 8 * i) = _
    omega
  · have := Proofs.Lyra2.setupStar_lt (show 2 ≤ i + 2 by omega)
    exact setupRow_within (by omega) (by omega) (by omega)

theorem wander_within {prev : Nat} (hp : prev < R) (rows stars : List Nat) (hr : ∀ r ∈ rows, r < R) (hs : ∀ r ∈ stars, r < R) :
    AllWithin (12 * (R * C)) (Access.wander C prev rows stars) := by
  induction rows generalizing prev stars with
  | nil => intro e he; cases he
  | cons x xs ih =>
    match stars with
    | [] => intro e he; cases he
    | a :: as =>
      have hx := hr x (by simp)
      exact .append (wanderRow_within hp (hs a (by simp)) hx)
        (ih hx as (fun r h => hr r (List.mem_cons_of_mem _ h)) fun r h => hs r (List.mem_cons_of_mem _ h))

theorem wanderRev3_within {prev : Nat} (hp : prev < R) (rows : List Nat) (cs : List (Nat × Nat × Nat)) (hr : ∀ r ∈ rows, r < R)
    (hs : ∀ c ∈ cs, c.1 < 16 ∧ c.2.1 < 16 ∧ c.2.2 < R) :
    AllWithin (12 * (R * C)) (Access.wanderRev3 C prev rows cs) := by
  induction rows generalizing prev cs with
  | nil => intro e he; cases he
  | cons x xs ih =>
    match cs with
    | [] => intro e he; cases he
    | (i, j, a) :: as =>
      have hx := hr x (by simp)
      obtain ⟨h1, h2, h3⟩ := hs (i, j, a) (by simp)
      exact .append (.append (.two h1 h2) (wanderRow_within hp h3 hx))
        (ih hx as (fun r h => hr r (List.mem_cons_of_mem _ h)) fun r h => hs r (List.mem_cons_of_mem _ h))

theorem wrapUp_within {star : Nat} (hs : star < R) (hC : 0 < C) (k : Nat) :
    AllWithin (12 * (R * C)) (Access.wrapUp (12 * (R * C)) C star k) := by
  have : 12 * C * star + 12 * C ≤ 12 * (R * C) := by
    calc 12 * C * star + 12 * C = 12 * ((star + 1) * C) := by ring
      _ ≤ 12 * (R * C) := Nat.mul_le_mul_left _ (Nat.mul_le_mul_right _ hs)
  refine .append (.two ?_ trivial) fun e he => ?_
  · show 12 * C * star < _ ∧ 12 * C * star + (12 * (R * C) - 12 * C * star) = _
    omega
  · rw [List.eq_of_mem_replicate he]
    exact trivial

end within

theorem getLastD_lt {R : Nat} (hR : 0 < R) (l : List Nat) (h : ∀ r ∈ l, r < R) : l.getLastD 0 < R := by
  cases l using List.reverseRecOn with
  | nil => simpa using hR
  | append_singleton l a => simpa using h a (by simp)

/-- **C55** (viii) All accesses of an accepted call stay inside the matrix, the two secret-dependent reads of the state in
`lyra2mod` inside its sixteen words, and every copy reaches exactly to the end of the matrix. -/
theorem C55_in_bounds (p : Profile) (k T R C : U64) (pwd salt : List U8) (h : Accepts k pwd.length salt.length T R C) :
    ∃ out out' log log', (Model.Log.lyra2 p k pwd salt T R C []).Returns (out, log) ∧
      (Model.Log.lyra2mod p k pwd salt T R C []).Returns (out', log') ∧
      (∀ e ∈ log, e.Within (12 * (R.toNat * C.toNat))) ∧ ∀ e ∈ log', e.Within (12 * (R.toNat * C.toNat)) := by
  obtain ⟨out, stars, -, h1, -, h2, h3⟩ := C55_access_pattern p k T R C pwd salt h
  obtain ⟨out', cs, -, h1', -, h2', h3'⟩ := C55_access_pattern_mod p k T R C pwd salt h
  have hR := h.2.1
  have hr : ∀ r ∈ Access.rows R.toNat T.toNat, r < R.toNat := (C47_schedule_bound R.toNat T.toNat (by omega)).2
  refine ⟨out, out', _, _, h1, h1', ?_, ?_⟩
  · exact AllWithin.append (.append (beforeWander_within hR h.2.2.2.2) (wander_within (by omega) _ _ hr h3))
      (wrapUp_within (getLastD_lt (by omega) _ h3) (Accepts.cols h) _)
  · refine AllWithin.append (.append (beforeWander_within hR h.2.2.2.2) (wanderRev3_within (by omega) _ _ hr h3'))
      (wrapUp_within (getLastD_lt (by omega) _ fun r hr => ?_) (Accepts.cols h) _)
    obtain ⟨c, hc, rfl⟩ := List.mem_map.mp hr
    exact (h3' c hc).2.2

/-- A call with 4 rows and 4 columns: hypotheses and setup part. -/
example : Accepts 32 32 32 1 4 4 ∧ Access.rows 4 1 = [0, 1, 2, 3] ∧
    (Access.beforeWander 32 32 4 4).take 16 = ((List.range 15).map .write ++ [.read 15]) := by
  refine ⟨by unfold Accepts isizeMax; decide, by decide, by decide⟩

/-! ## C56 -/

/-- The sum of a quantity over a log. -/
def total (f : Event → Nat) (log : List Event) : Nat := (log.map f).sum

theorem total_append (f : Event → Nat) (l l' : List Event) : total f (l ++ l') = total f l + total f l' := by
  unfold total
  rw [List.map_append, List.sum_append]

theorem total_range (f : Event → Nat) (n c : Nat) (g : Nat → List Event) (h : ∀ i, total f (g i) = c) :
    total f ((List.range n).flatMap g) = n * c := by
  induction n with
  | zero => simp [total]
  | succ n ih =>
    rw [List.range_succ, List.flatMap_append, total_append, ih, Nat.add_mul, Nat.one_mul]
    simp [h]

/-- A quantity that does not depend on positions: `a`, `b`, `r` and `q` for reads, writes, rounds and permutations, `g n` for a copy of
`n` words. -/
structure Price (f : Event → Nat) (a b r q : Nat) (g : Nat → Nat) : Prop where
  read : ∀ i, f (.read i) = a
  write : ∀ i, f (.write i) = b
  copy : ∀ i n, f (.copy i n) = g n
  state : ∀ i, f (.state i) = 0
  round : f .round = r
  permute : f .permute = q

theorem total_cons (f : Event → Nat) (e : Event) (l : List Event) : total f (e :: l) = f e + total f l := rfl

theorem total_nil (f : Event → Nat) : total f [] = 0 := rfl

section price
variable {f : Event → Nat} {a b r q : Nat} {g : Nat → Nat} (h : Price f a b r q g)
include h

theorem price_row0 (C : Nat) : total f (Access.row0 C) = C * (12 * b + r) := by
  unfold Access.row0 Access.columns Access.each
  refine total_range _ _ _ _ fun c => ?_
  rw [total_append, total_range _ 12 b _ fun w => by rw [total_cons, total_nil, h.write, Nat.add_zero]]
  rw [total_cons, total_nil, h.round, Nat.add_zero]

theorem price_row1 (C : Nat) : total f (Access.row1 C) = C * (24 * a + 12 * b + r) := by
  unfold Access.row1 Access.columns Access.each
  refine total_range _ _ _ _ fun c => ?_
  rw [total_append, total_append, total_range _ 12 a _ fun w => by rw [total_cons, total_nil, h.read, Nat.add_zero],
    total_range _ 12 (a + b) _ fun w => by rw [total_cons, total_cons, total_nil, h.write, h.read, Nat.add_zero],
    total_cons, total_nil, h.round]
  ring

theorem price_setupRow (C prev star row : Nat) : total f (Access.setupRow C prev star row) = C * (48 * a + 24 * b + r) := by
  unfold Access.setupRow Access.columns Access.each
  refine total_range _ _ _ _ fun c => ?_
  rw [total_append, total_append, total_append,
    total_range _ 12 (a + a) _ fun w => by rw [total_cons, total_cons, total_nil, h.read, h.read, Nat.add_zero],
    total_range _ 12 (a + b) _ fun w => by rw [total_cons, total_cons, total_nil, h.write, h.read, Nat.add_zero],
    total_range _ 12 (a + b) _ fun w => by rw [total_cons, total_cons, total_nil, h.write, h.read, Nat.add_zero],
    total_cons, total_nil, h.round]
  ring

theorem price_wanderRow (C prev star row : Nat) : total f (Access.wanderRow C prev star row) = C * (48 * a + 24 * b + r) := by
  unfold Access.wanderRow Access.columns Access.each
  refine total_range _ _ _ _ fun c => ?_
  rw [total_append, total_append, total_append,
    total_range _ 12 (a + a) _ fun w => by rw [total_cons, total_cons, total_nil, h.read, h.read, Nat.add_zero],
    total_range _ 12 (a + b) _ fun w => by rw [total_cons, total_cons, total_nil, h.write, h.read, Nat.add_zero],
    total_range _ 12 (a + b) _ fun w => by rw [total_cons, total_cons, total_nil, h.write, h.read, Nat.add_zero],
    total_cons, total_nil, h.round]
  ring

theorem price_input (n m : Nat) : total f (Access.input n m) = (n + 1) * b + a := by
  unfold Access.input
  rw [total_append, List.map_eq_flatMap, total_range _ n b _ fun w => by rw [total_cons, total_nil, h.write, Nat.add_zero],
    total_cons, total_cons, total_nil, h.read, h.write]
  ring

theorem price_absorb (N n : Nat) : total f (Access.absorb N n) = n * q + ((List.range n).map fun i => g (N - 8 * i)).sum := by
  unfold Access.absorb
  induction n with
  | zero => simp [total]
  | succ n ih =>
    rw [List.range_succ, List.flatMap_append, total_append, ih, List.map_append, List.sum_append, List.flatMap_cons, List.flatMap_nil,
      List.append_nil, total_cons, total_cons, total_nil, h.copy, h.permute]
    simp only [List.map_cons, List.map_nil, List.sum_cons, List.sum_nil]
    ring

theorem price_beforeWander (x y : Nat) {R : Nat} (hR : 3 ≤ R) (C : Nat) : total f (Access.beforeWander x y R C) =
    a * (1 + 24 * C + 48 * C * (R - 2)) + b * (x / 8 + y / 8 + 8 + 24 * C * (R - 1)) + r * (C * R) + q * nBlocks (x + y) +
      ((List.range (nBlocks (x + y))).map fun i => g (12 * (R * C) - 8 * i)).sum := by
  unfold Access.beforeWander Access.setup
  rw [total_append, total_append, total_append, total_append, price_input h, price_absorb h, price_row0 h, price_row1 h,
    total_range _ _ _ _ fun i => price_setupRow h _ _ _ _]
  obtain ⟨n, rfl⟩ : ∃ n, R = n + 3 := ⟨R - 3, by omega⟩
  rw [show n + 3 - 2 = n + 1 by omega, show n + 3 - 1 = n + 2 by omega]
  ring

theorem price_wander (C prev : Nat) (rows stars : List Nat) (hl : stars.length = rows.length) :
    total f (Access.wander C prev rows stars) = rows.length * (C * (48 * a + 24 * b + r)) := by
  induction rows generalizing prev stars with
  | nil => simp [Access.wander, total]
  | cons x xs ih =>
    match stars, hl with
    | s :: ss, hl =>
      rw [Access.wander, total_append, price_wanderRow h, ih x ss (by simpa using hl), List.length_cons]
      ring

theorem price_wanderRev3 (C prev : Nat) (rows : List Nat) (cs : List (Nat × Nat × Nat)) (hl : cs.length = rows.length) :
    total f (Access.wanderRev3 C prev rows cs) = rows.length * (C * (48 * a + 24 * b + r)) := by
  induction rows generalizing prev cs with
  | nil => simp [Access.wanderRev3, total]
  | cons x xs ih =>
    match cs, hl with
    | (i, j, s) :: ss, hl =>
      rw [Access.wanderRev3, total_append, total_append, price_wanderRow h, ih x ss (by simpa using hl), List.length_cons, total_cons,
        total_cons, total_nil, h.state, h.state]
      ring

theorem price_wrapUp (N C star k : Nat) : total f (Access.wrapUp N C star k) = q * (k / 96 + 2) + g (N - 12 * C * star) := by
  unfold Access.wrapUp
  rw [total_append, total_cons, total_cons, total_nil, h.copy, h.permute]
  unfold total
  rw [List.map_replicate, List.sum_replicate, h.permute, smul_eq_mul]
  ring

end price

theorem countP_total (P : Event → Bool) (l : List Event) : l.countP P = total (fun e => if P e then 1 else 0) l := by
  induction l with
  | nil => rfl
  | cons e l ih => rw [List.countP_cons, ih, total_cons, Nat.add_comm]

/-- The number of events of a kind. -/
def Event.count (kind : Event.Kind) (log : List Event) : Nat := log.countP fun e => e.kind = kind

theorem count_read : Price (fun e => if decide (e.kind = .read) then 1 else 0) 1 0 0 0 (fun _ => 0) :=
  ⟨fun _ => rfl, fun _ => rfl, fun _ _ => rfl, fun _ => rfl, rfl, rfl⟩
theorem count_write : Price (fun e => if decide (e.kind = .write) then 1 else 0) 0 1 0 0 (fun _ => 0) :=
  ⟨fun _ => rfl, fun _ => rfl, fun _ _ => rfl, fun _ => rfl, rfl, rfl⟩
theorem count_round : Price (fun e => if decide (e.kind = .round) then 1 else 0) 0 0 1 0 (fun _ => 0) :=
  ⟨fun _ => rfl, fun _ => rfl, fun _ _ => rfl, fun _ => rfl, rfl, rfl⟩
theorem count_permute : Price (fun e => if decide (e.kind = .permute) then 1 else 0) 0 0 0 1 (fun _ => 0) :=
  ⟨fun _ => rfl, fun _ => rfl, fun _ _ => rfl, fun _ => rfl, rfl, rfl⟩

/-- The cost of a run whose log is `log`, if the wandering phase performs `n` row operations. -/
structure Cost (log : List Event) (k a b R C n : Nat) : Prop where
  /-- one-round transformations -/
  rounds : Event.count .round log = C * (R + n)
  /-- twelve-round transformations: one per input block, one for the last block, one or two for the key -/
  permutations : Event.count .permute log = ((a + b + 48) / 64 + 1) + 1 + (k / 96 + 1)
  /-- words read from the matrix -/
  reads : Event.count .read log = 1 + 24 * C + 48 * C * (R - 2 + n)
  /-- words written to the matrix -/
  writes : Event.count .write log = (a / 8 + b / 8 + 8) + 24 * C * (R - 1 + n)

theorem call_total {f : Event → Nat} {x y r q : Nat} {g : Nat → Nat} (h : Price f x y r q g) (k a b T : Nat) {R : Nat} (C : Nat) (hR : 3 ≤ R)
    (stars : List Nat) (hl : stars.length = (Access.rows R T).length) :
    total f (Access.call k a b T R C stars) =
      x * (1 + 24 * C + 48 * C * (R - 2)) + y * (a / 8 + b / 8 + 8 + 24 * C * (R - 1)) + r * (C * R) + q * nBlocks (a + b) +
        (Access.rows R T).length * (C * (48 * x + 24 * y + r)) + q * (k / 96 + 2) +
        (((List.range (nBlocks (a + b))).map fun i => g (12 * (R * C) - 8 * i)).sum + g (12 * (R * C) - 12 * C * stars.getLastD 0)) := by
  unfold Access.call
  rw [total_append, total_append, price_beforeWander h _ _ hR, price_wander h _ _ _ _ hl, price_wrapUp h]
  ring

theorem call_cost (k a b T : Nat) {R : Nat} (C : Nat) (hR : 3 ≤ R) (stars : List Nat) (hl : stars.length = (Access.rows R T).length) :
    Cost (Access.call k a b T R C stars) k a b R C (Access.rows R T).length := by
  have key := fun {f x y r q g} h => @call_total f x y r q g h k a b T R C hR stars hl
  constructor
  · unfold Event.count; rw [countP_total, key count_round]; simp; ring
  · unfold Event.count; rw [countP_total, key count_permute]; unfold nBlocks; simp; omega
  · unfold Event.count; rw [countP_total, key count_read]; simp; ring
  · unfold Event.count; rw [countP_total, key count_write]; simp; ring

theorem callRev3_total {f : Event → Nat} {x y r q : Nat} {g : Nat → Nat} (h : Price f x y r q g) (k a b T : Nat) {R : Nat} (C : Nat) (hR : 3 ≤ R)
    (cs : List (Nat × Nat × Nat)) (hl : cs.length = (Access.rows R T).length) :
    total f (Access.callRev3 k a b T R C cs) =
      x * (1 + 24 * C + 48 * C * (R - 2)) + y * (a / 8 + b / 8 + 8 + 24 * C * (R - 1)) + r * (C * R) + q * nBlocks (a + b) +
        (Access.rows R T).length * (C * (48 * x + 24 * y + r)) + q * (k / 96 + 2) +
        (((List.range (nBlocks (a + b))).map fun i => g (12 * (R * C) - 8 * i)).sum + g (12 * (R * C) - 12 * C * (cs.map fun c => c.2.2).getLastD 0)) := by
  unfold Access.callRev3
  rw [total_append, total_append, price_beforeWander h _ _ hR, price_wanderRev3 h _ _ _ _ hl, price_wrapUp h]
  ring

theorem callRev3_cost (k a b T : Nat) {R : Nat} (C : Nat) (hR : 3 ≤ R) (cs : List (Nat × Nat × Nat))
    (hl : cs.length = (Access.rows R T).length) :
    Cost (Access.callRev3 k a b T R C cs) k a b R C (Access.rows R T).length := by
  have key := fun {f x y r q g} h => @callRev3_total f x y r q g h k a b T R C hR cs hl
  constructor
  · unfold Event.count; rw [countP_total, key count_round]; simp; ring
  · unfold Event.count; rw [countP_total, key count_permute]; unfold nBlocks; simp; omega
  · unfold Event.count; rw [countP_total, key count_read]; simp; ring
  · unfold Event.count; rw [countP_total, key count_write]; simp; ring

/-- **C56** (i) The cost of an accepted call, for every number of rows; `n` row operations, at most one per pass and row, and at
least one per pass. -/
theorem C56_cost (p : Profile) (k T R C : U64) (pwd salt : List U8) (h : Accepts k pwd.length salt.length T R C) :
    ∃ out out' log log' n, (Model.Log.lyra2 p k pwd salt T R C []).Returns (out, log) ∧
      (Model.Log.lyra2mod p k pwd salt T R C []).Returns (out', log') ∧
      Cost log k.toNat pwd.length salt.length R.toNat C.toNat n ∧ Cost log' k.toNat pwd.length salt.length R.toNat C.toNat n ∧
      n = (schedule (Order.mask R.toNat) T.toNat).length ∧ T.toNat ≤ n ∧ n ≤ T.toNat * R.toNat := by
  obtain ⟨out, stars, -, h1, -, h2, -⟩ := C55_access_pattern p k T R C pwd salt h
  obtain ⟨out', cs, -, h1', -, h2', -⟩ := C55_access_pattern_mod p k T R C pwd salt h
  refine ⟨out, out', _, _, _, h1, h1', call_cost _ _ _ _ _ h.2.1 _ h2, callRev3_cost _ _ _ _ _ h.2.1 _ h2', rfl, ?_, ?_⟩
  · unfold Access.rows
    rw [List.length_flatMap]
    generalize T.toNat = n
    induction n with
    | zero => simp
    | succ n ih =>
      rw [List.range_succ, List.map_append, List.sum_append]
      have : 0 < (Order.mask R.toNat (n + 1)).length :=
        List.length_pos_iff.mpr (Proofs.Lyra2.mask_ne_nil (by have := h.2.1; omega) _)
      simp only [List.map_cons, List.map_nil, List.sum_cons, List.sum_nil] at *
      omega
  · exact (C47_schedule_bound R.toNat T.toNat (by have := h.2.1; omega)).1

/-- **C56** (ii) For a power of two of rows the transformation of one round is applied `C R (T + 1)` times: once per cell for the
setup phase and once per cell for every pass. -/
theorem C56_cost_pow2 (p : Profile) (k T R C : U64) (pwd salt : List U8) (h : Accepts k pwd.length salt.length T R C) (j : Nat)
    (hj : R.toNat = 2 ^ j) :
    ∃ out out' log log', (Model.Log.lyra2 p k pwd salt T R C []).Returns (out, log) ∧
      (Model.Log.lyra2mod p k pwd salt T R C []).Returns (out', log') ∧
      Event.count .round log = C.toNat * R.toNat * (T.toNat + 1) ∧ Event.count .round log' = C.toNat * R.toNat * (T.toNat + 1) := by
  obtain ⟨out, out', log, log', n, h1, h2, h3, h4, h5, -, -⟩ := C56_cost p k T R C pwd salt h
  have hj2 : 2 ≤ j := pow_two_le h.2.1 hj
  rw [hj, (C47_schedule_pow2 j hj2 T.toNat).2.1, ← hj] at h5
  refine ⟨out, out', log, log', h1, h2, ?_, ?_⟩
  · rw [h3.rounds, h5]; ring
  · rw [h4.rounds, h5]; ring

/-- The parameters of Lyra2REv2: 4 rows, 4 columns, one pass, inputs of 32 bytes, 32 bytes of key: 32 one-round and 4 twelve-round
transformations. -/
example (p : Profile) (pwd : List U8) (hp : pwd.length = 32) : ∃ out log, (Model.Log.lyra2 p 32 pwd pwd 1 4 4 []).Returns (out, log) ∧
    Event.count .round log = 32 ∧ Event.count .permute log = 4 := by
  have ha : Accepts 32 pwd.length pwd.length 1 4 4 := by rw [hp]; unfold Accepts isizeMax; decide
  obtain ⟨out, out', log, log', n, h1, h2, h3, h4, h5, -, -⟩ := C56_cost p 32 1 4 4 pwd pwd ha
  have hn : (schedule (Order.mask 4) 1).length = 4 := by decide
  refine ⟨out, log, h1, ?_, ?_⟩
  · rw [h3.rounds, h5]; show 4 * (4 + (schedule (Order.mask 4) 1).length) = 32; rw [hn]
  · rw [h3.permutations, hp]; rfl

/-! Words copied. -/

theorem copied_price : Price Event.copied 0 0 0 0 id := ⟨fun _ => rfl, fun _ => rfl, fun _ _ => rfl, fun _ => rfl, rfl, rfl⟩

theorem sum_copies {N n : Nat} (h : 8 * n ≤ N) :
    ((List.range n).map fun i => id (N - 8 * i)).sum + 4 * n * (n - 1) = n * N := by
  induction n with
  | zero => simp
  | succ n ih =>
    have ih := ih (by omega)
    rw [List.range_succ, List.map_append, List.sum_append]
    simp only [List.map_cons, List.map_nil, List.sum_cons, List.sum_nil, id_eq] at *
    obtain ⟨d, rfl⟩ : ∃ d, N = 8 * n + d := ⟨N - 8 * n, by omega⟩
    rw [Nat.add_sub_cancel_left, Nat.add_sub_cancel]
    cases n with
    | zero => simp
    | succ n =>
      rw [Nat.add_sub_cancel] at ih
      nlinarith [ih]

/-- The words copied by a call with `b` input blocks, a matrix of `R` rows and `C` columns and last choice `star` of `row*`: for every
input block the matrix from that block on, the first time the whole matrix; at the end the matrix from row `star` on. -/
structure Copies (log : List Event) (b R C star : Nat) : Prop where
  row : star < R
  whole : .copy 0 (12 * (R * C)) ∈ log
  words : (log.map Event.copied).sum + 4 * b * (b - 1) = b * (12 * (R * C)) + 12 * C * (R - star)

theorem copies_words {log : List Event} {n R C star : Nat} (hs : 8 * n ≤ 12 * (R * C))
    (ht : total Event.copied log =
      ((List.range n).map fun i => id (12 * (R * C) - 8 * i)).sum + (12 * (R * C) - 12 * C * star)) :
    (log.map Event.copied).sum + 4 * n * (n - 1) = n * (12 * (R * C)) + 12 * C * (R - star) := by
  have hs := sum_copies hs
  have e : 12 * (R * C) - 12 * C * star = 12 * C * (R - star) := by
    rw [Nat.mul_sub]; congr 1; ring
  unfold total at ht
  rw [ht, e]
  omega

/-- **C56** (iii) Copies: with `b` input blocks and `N` words of matrix, `b N - 4 b (b - 1)` words are copied for the input, and
`12 C (R - row*)` words at the end, for the last choice of `row*` (C55). -/
theorem C56_copies (p : Profile) (k T R C : U64) (pwd salt : List U8) (h : Accepts k pwd.length salt.length T R C) :
    ∃ out log, (Model.Log.lyra2 p k pwd salt T R C []).Returns (out, log) ∧
      Copies log ((pwd.length + salt.length + 48) / 64 + 1) R.toNat C.toNat
        ((Access.stars (Pick.mask R.toNat) C.toNat (Access.afterSetup (crateWords k.toNat pwd salt T.toNat R.toNat C.toNat) R.toNat C.toNat)
          (Access.rows R.toNat T.toNat)).getLastD 0) := by
  obtain ⟨out, stars, -, h1, hst, h2, h3⟩ := C55_access_pattern p k T R C pwd salt h
  have hR := h.2.1
  rw [← hst]
  refine ⟨out, _, h1, getLastD_lt (by omega) _ h3, ?_, ?_⟩
  · unfold Access.call Access.beforeWander Access.absorb nBlocks
    rw [List.range_succ_eq_map]
    simp
  · refine copies_words (n := nBlocks (pwd.length + salt.length)) h.2.2.2.2 ?_
    rw [call_total copied_price k.toNat pwd.length salt.length T.toNat C.toNat hR stars h2]
    simp

/-- **C56** (iv) The same for `lyra2mod`. -/
theorem C56_copies_mod (p : Profile) (k T R C : U64) (pwd salt : List U8) (h : Accepts k pwd.length salt.length T R C) :
    ∃ out log, (Model.Log.lyra2mod p k pwd salt T R C []).Returns (out, log) ∧
      Copies log ((pwd.length + salt.length + 48) / 64 + 1) R.toNat C.toNat
        (((Access.choices R.toNat C.toNat (Access.afterSetup (crateWords k.toNat pwd salt T.toNat R.toNat C.toNat) R.toNat C.toNat)
          (Access.rows R.toNat T.toNat)).map fun c => c.2.2).getLastD 0) := by
  obtain ⟨out, cs, -, h1, hst, h2, h3⟩ := C55_access_pattern_mod p k T R C pwd salt h
  have hR := h.2.1
  rw [← hst]
  refine ⟨out, _, h1, getLastD_lt (by omega) _ ?_, ?_, ?_⟩
  · intro r hr
    obtain ⟨c, hc, rfl⟩ := List.mem_map.mp hr
    exact (h3 c hc).2.2
  · unfold Access.callRev3 Access.beforeWander Access.absorb nBlocks
    rw [List.range_succ_eq_map]
    simp
  · refine copies_words (n := nBlocks (pwd.length + salt.length)) h.2.2.2.2 ?_
    rw [callRev3_total copied_price k.toNat pwd.length salt.length T.toNat C.toNat hR cs h2]
    simp

/-- The only choice of `row*` of a call with no salt, one pass, 3 rows, 1 column and a key of 1 byte. -/
def onlyStar (pwd : List U8) : Nat := (Pick.mask 3 (Access.afterSetup (crateWords 1 pwd [] 1 3 1) 3 1).s 0).1

set_option maxRecDepth 100000 in
theorem only_star : onlyStar [0, 0, 0, 0, 0, 0, 0, 0] ≠ onlyStar [1, 0, 0, 0, 0, 0, 0, 0] := by decide +kernel

/-- **C56** (v) The number of words copied depends on the password: there are two passwords of the same length for which it differs. -/
theorem C56_copies_depend_on_password : ∃ (k T R C : U64) (pwd pwd' : List U8), pwd.length = pwd'.length ∧
    Accepts k pwd.length 0 T R C ∧ ∀ p, ∃ out out' log log', (Model.Log.lyra2 p k pwd [] T R C []).Returns (out, log) ∧
      (Model.Log.lyra2 p k pwd' [] T R C []).Returns (out', log') ∧
      (log.map Event.copied).sum ≠ (log'.map Event.copied).sum := by
  have ha : Accepts 1 ([0, 0, 0, 0, 0, 0, 0, 0] : List U8).length ([] : List U8).length 1 3 1 := by unfold Accepts isizeMax; decide
  refine ⟨1, 1, 3, 1, [0, 0, 0, 0, 0, 0, 0, 0], [1, 0, 0, 0, 0, 0, 0, 0], rfl, ha, fun p => ?_⟩
  obtain ⟨out, log, h1, h2⟩ := C56_copies p 1 1 3 1 [0, 0, 0, 0, 0, 0, 0, 0] [] ha
  obtain ⟨out', log', h1', h2'⟩ := C56_copies p 1 1 3 1 [1, 0, 0, 0, 0, 0, 0, 0] [] ha
  have hr : Access.rows 3 1 = [0] := by decide
  rw [show (3 : U64).toNat = 3 from rfl, show (1 : U64).toNat = 1 from rfl, hr] at h2 h2'
  have k1 : Copies log _ 3 1 (onlyStar [0, 0, 0, 0, 0, 0, 0, 0]) := h2
  have k2 : Copies log' _ 3 1 (onlyStar [1, 0, 0, 0, 0, 0, 0, 0]) := h2'
  refine ⟨out, out', log, log', h1, h1', fun he => only_star ?_⟩
  have w1 := k1.words
  have w2 := k2.words
  have r1 := k1.row
  have r2 := k2.row
  simp only [List.length_cons, List.length_nil] at w1 w2
  omega

end Props
