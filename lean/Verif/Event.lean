/-! What is observed of a run of `lyra2`: accesses to the memory matrix and applications of the sponge transformation. -/

/-- An entry of the log of a run. -/
inductive Event
  /-- word `i` of `whole_matrix` is read -/
  | read (i : Nat)
  /-- word `i` of `whole_matrix` is written -/
  | write (i : Nat)
  /-- `n` words of `whole_matrix`, from word `i` to its end, are copied to a new vector (`split_at(i).1.to_vec()`) -/
  | copy (i n : Nat)
  /-- word `i` of the sponge state is read, for an `i` that is not a constant of the program -/
  | state (i : Nat)
  /-- the one-round sponge transformation is applied (`reduced_blake2b_lyra`) -/
  | round
  /-- the twelve-round sponge transformation is applied (`blake2b_lyra`) -/
  | permute
deriving DecidableEq, Repr

/-- What kind of event it is, without the position. -/
inductive Event.Kind
  | read
  | write
  | copy
  | state
  | round
  | permute
deriving DecidableEq, Repr

/-- Forgets the position. -/
def Event.kind : Event → Event.Kind
  | .read _ => .read
  | .write _ => .write
  | .copy _ _ => .copy
  | .state _ => .state
  | .round => .round
  | .permute => .permute

/-- Number of words copied. -/
def Event.copied : Event → Nat
  | .copy _ n => n
  | _ => 0

/-- The event stays inside a matrix of `n` words and a state of sixteen words; copies reach to the end of the matrix. -/
def Event.Within (n : Nat) : Event → Prop
  | .read i => i < n
  | .write i => i < n
  | .copy i l => i < n ∧ i + l = n
  | .state i => i < 16
  | .round => True
  | .permute => True
