import Verif.Model.Serialization
import Mathlib.Tactic.IntervalCases
import Mathlib.Tactic.Linarith
import Mathlib.Tactic.Ring

/-! Lemmas about the serialization of particles. -/
namespace Verif.Ser

theorem toBytes_length (w : Word) : (toBytes w).length = 8 := by simp [toBytes]

theorem ofBytes_toBytes (w : Word) : ofBytes (toBytes w) = w := by
  apply BitVec.eq_of_getLsbD_eq
  intro i hi
  simp only [toBytes, ofBytes, List.range, List.range.loop, List.map_cons, List.map_nil, List.foldr_cons, List.foldr_nil]
  interval_cases i <;> simp

variable {P A : Type} {fmt : Format P A}

/-- The bytes of the given attributes of a particle, one after the other. -/
def payload (fmt : Format P A) (p : P) (as : List A) : List Byte := as.flatMap fun a => toBytes (fmt.get p a)

theorem payload_length (p : P) (as : List A) : (payload fmt p as).length = 8 * as.length := by
  induction as with
  | nil => rfl
  | cons a as ih =>
    have : payload fmt p (a :: as) = toBytes (fmt.get p a) ++ payload fmt p as := rfl
    rw [this, List.length_append, ih, toBytes_length, List.length_cons]
    omega

theorem serializeAttributes_eq (p : P) (as : List A) (done rest : List Byte) (h : 8 * as.length ≤ rest.length) :
    serializeAttributes fmt p as (done ++ rest, done.length) =
      .ok (done ++ payload fmt p as ++ rest.drop (8 * as.length), done.length + 8 * as.length) := by
  induction as generalizing done rest with
  | nil => simp [serializeAttributes, payload]
  | cons a as ih =>
    rw [List.length_cons] at h
    have hc : copyInto (done ++ rest) done.length (toBytes (fmt.get p a)) =
        .ok ((done ++ toBytes (fmt.get p a)) ++ rest.drop 8) := by
      unfold copyInto
      rw [toBytes_length, if_pos (by rw [List.length_append]; omega), List.take_left, ← List.drop_drop, List.drop_left]
    have hlen : done.length + 8 = (done ++ toBytes (fmt.get p a)).length := by
      rw [List.length_append, toBytes_length]
    unfold serializeAttributes serializeAttribute
    simp only [hc, Outcome.bind]
    rw [hlen, ih (done ++ toBytes (fmt.get p a)) (rest.drop 8) (by rw [List.length_drop]; omega)]
    have hp : payload fmt p (a :: as) = toBytes (fmt.get p a) ++ payload fmt p as := rfl
    rw [hp, List.drop_drop, ← hlen, List.length_cons]
    congr 2
    · simp only [List.append_assoc]
      congr 4
      omega
    · omega

/-- What makes a format complete: the size is that of all attributes, there is at least one, and setting all attributes of some
particle to those of `q` gives `q`. -/
structure Format.Complete (fmt : Format P A) : Prop where
  size : fmt.attributesSize = 8 * fmt.attributes.length
  pos : 0 < fmt.attributes.length
  all : ∀ p q, fmt.attributes.foldl (fun p a => fmt.set p (fmt.get q a) a) p = q

theorem singleSite_complete : singleSite.Complete := by
  refine ⟨rfl, by decide, fun p q => ?_⟩
  simp [singleSite, Mol.get, Mol.set]

theorem multiSite_complete : multiSite.Complete := by
  refine ⟨rfl, by decide, fun p q => ?_⟩
  simp [multiSite, MultiMol.get, MultiMol.set, Mol.get, Mol.set]

theorem serializeParticle_eq (hf : fmt.Complete) (p : P) (out : List Byte) :
    serializeParticle fmt p out = .ok (out ++ payload fmt p fmt.attributes) := by
  unfold serializeParticle
  have := serializeAttributes_eq (fmt := fmt) p fmt.attributes [] (List.replicate fmt.attributesSize 0)
    (by rw [List.length_replicate, hf.size])
  rw [List.nil_append, List.length_nil] at this
  rw [this]
  simp [Outcome.bind, hf.size]

theorem serializeAll_eq (hf : fmt.Complete) (ps : List P) (out : List Byte) :
    serializeAll fmt ps out = .ok (out ++ ps.flatMap fun p => payload fmt p fmt.attributes) := by
  induction ps generalizing out with
  | nil => simp [serializeAll]
  | cons p ps ih => simp [serializeAll, serializeParticle_eq hf, Outcome.bind, ih]

theorem flat_length (hf : fmt.Complete) (ps : List P) :
    (ps.flatMap fun p => payload fmt p fmt.attributes).length = ps.length * fmt.attributesSize := by
  induction ps with
  | nil => simp
  | cons p ps ih =>
    rw [List.flatMap_cons, List.length_append, ih, payload_length, ← hf.size, List.length_cons, Nat.succ_mul, Nat.add_comm]

theorem deserializeAttributes_eq (p q : P) (as : List A) (pre mid post : List Byte) :
    deserializeAttributes fmt (pre ++ mid ++ payload fmt q as ++ post) pre.length as (p, mid.length) =
      .ok (as.foldl (fun p a => fmt.set p (fmt.get q a) a) p, mid.length + 8 * as.length) := by
  induction as generalizing p mid with
  | nil => simp [deserializeAttributes]
  | cons a as ih =>
    have hp : payload fmt q (a :: as) = toBytes (fmt.get q a) ++ payload fmt q as := rfl
    have hc : copyFrom (pre ++ mid ++ payload fmt q (a :: as) ++ post) (pre.length + mid.length) = .ok (fmt.get q a) := by
      unfold copyFrom
      rw [if_pos (by simp only [List.length_append, payload_length, List.length_cons]; omega), hp]
      have : ((pre ++ mid ++ (toBytes (fmt.get q a) ++ payload fmt q as) ++ post).drop (pre.length + mid.length)).take 8 =
          toBytes (fmt.get q a) := by
        rw [← List.length_append, List.append_assoc (pre ++ mid), List.drop_left, List.append_assoc,
          ← toBytes_length (fmt.get q a), List.take_left]
      rw [this, ofBytes_toBytes]
    have hlen : mid.length + 8 = (mid ++ toBytes (fmt.get q a)).length := by
      rw [List.length_append, toBytes_length]
    unfold deserializeAttributes deserializeAttribute
    simp only [hc, Outcome.bind]
    rw [hlen]
    have hsplit : pre ++ mid ++ payload fmt q (a :: as) ++ post =
        pre ++ (mid ++ toBytes (fmt.get q a)) ++ payload fmt q as ++ post := by
      rw [hp]; simp only [List.append_assoc]
    rw [hsplit, ih, List.foldl_cons, ← hlen, List.length_cons]
    congr 2
    omega

theorem deserializeParticle_eq (hf : fmt.Complete) (p q : P) (pre post : List Byte) :
    deserializeParticle fmt (pre ++ payload fmt q fmt.attributes ++ post) pre.length p = .ok q := by
  unfold deserializeParticle
  have := deserializeAttributes_eq (fmt := fmt) p q fmt.attributes pre [] post
  rw [List.append_nil, List.length_nil] at this
  rw [this]
  simp [Outcome.bind, hf.all]

theorem deserializeLoop_eq (hf : fmt.Complete) (ps : List P) (pre : List Byte) (fuel : Nat) (p : P) (acc : List P)
    (hfuel : ps.length ≤ fuel) :
    deserializeLoop fmt (pre ++ ps.flatMap fun p => payload fmt p fmt.attributes) fuel pre.length p acc = .ok (acc ++ ps) := by
  induction ps generalizing pre fuel p acc with
  | nil => cases fuel <;> simp [deserializeLoop]
  | cons q ps ih =>
    obtain ⟨fuel, rfl⟩ : ∃ k, fuel = k + 1 := ⟨fuel - 1, by simp at hfuel; omega⟩
    have hpos := hf.pos
    have hl := payload_length (fmt := fmt) q fmt.attributes
    unfold deserializeLoop
    rw [if_pos (by
      rw [List.length_append, List.flatMap_cons, List.length_append]
      omega)]
    rw [List.flatMap_cons, ← List.append_assoc, deserializeParticle_eq hf]
    simp only [Outcome.bind]
    have : pre.length + fmt.attributesSize = (pre ++ payload fmt q fmt.attributes).length := by
      rw [List.length_append, hl, hf.size]
    rw [this, ih _ fuel q (acc ++ [q]) (by simp at hfuel; omega)]
    simp

theorem deserializeParticles_eq (hf : fmt.Complete) (ps received : List P) :
    deserializeParticles fmt (ps.flatMap fun p => payload fmt p fmt.attributes) received = .ok (received ++ ps) := by
  unfold deserializeParticles
  have := deserializeLoop_eq hf ps [] (ps.flatMap fun p => payload fmt p fmt.attributes).length fmt.default received (by
    rw [flat_length hf, hf.size]
    have := hf.pos
    nlinarith)
  simpa using this

theorem bmod_small (n m : Nat) (h : 2 * n < m) : Int.bmod n m = n := by
  apply Int.bmod_eq_of_le <;> omega

theorem bmod_wrap (n m : Nat) (h : 2 * n < m) : Int.bmod ((m + n : Nat) : Int) m = n := by
  have : ((m + n : Nat) : Int) = (n : Int) + (m : Int) := by push_cast; ring
  rw [this, Int.add_bmod_right]
  exact bmod_small n m h

theorem bmod_negative (n m : Nat) (h : m ≤ 2 * n) (h' : n < m) : Int.bmod (n : Int) m < 0 := by
  have : (n : Int) = ((n : Int) - m) + (m : Int) := by ring
  rw [this, Int.add_bmod_right, Int.bmod_eq_of_le] <;> omega

theorem toCInt_small {n : Nat} (h : n < 2147483648) : toCInt n = n := bmod_small n 4294967296 (by omega)

theorem toCInt_wrap {n : Nat} (h : n < 2147483648) : toCInt (4294967296 + n) = n := bmod_wrap n 4294967296 (by omega)

theorem toCInt_negative {n : Nat} (h : 2147483648 ≤ n) (h' : n < 4294967296) : toCInt n < 0 :=
  bmod_negative n 4294967296 (by omega) h'

theorem sendData_count (ch : Channel) (b : List Byte) (c : Nat) (h : toCInt b.length = c) :
    sendData ch b = .ok (ch ++ [b.take c]) := by
  unfold sendData
  generalize toCInt b.length = t at h
  subst h
  dsimp only
  rw [if_neg (by omega), Int.toNat_natCast]

theorem sendData_negative (ch : Channel) (b : List Byte) (h : toCInt b.length < 0) : sendData ch b = .throws := by
  unfold sendData
  generalize toCInt b.length = t at h
  dsimp only
  rw [if_pos h]

theorem bind_ok {α β : Type} (a : α) (f : α → Outcome β) : (Outcome.ok a).bind f = f a := rfl

theorem sendParticles_data (hf : fmt.Complete) (ch : Channel) (ps : List P) :
    sendParticles fmt ch ps = sendData ch (ps.flatMap fun p => payload fmt p fmt.attributes) := by
  unfold sendParticles
  rw [serializeAll_eq hf, bind_ok, List.nil_append]

theorem sendParticles_small (hf : fmt.Complete) (ch : Channel) (ps : List P) (h : ps.length * fmt.attributesSize < 2147483648) :
    sendParticles fmt ch ps = .ok (ch ++ [ps.flatMap fun p => payload fmt p fmt.attributes]) := by
  rw [sendParticles_data hf]
  rw [sendData_count _ _ _ (toCInt_small (by rw [flat_length hf]; exact h)), List.take_length]

theorem receiveParticles_eq (hf : fmt.Complete) (ch : Channel) (ps received : List P) :
    receiveParticles fmt ((ps.flatMap fun p => payload fmt p fmt.attributes) :: ch) received = .ok (ch, received ++ ps) := by
  unfold receiveParticles
  by_cases h : (ps.flatMap fun p => payload fmt p fmt.attributes) = []
  · dsimp only
    rw [if_neg (not_not.2 h)]
    have : ps = [] := by
      have hl := flat_length hf ps
      rw [h, List.length_nil, hf.size] at hl
      have := hf.pos
      have : ps.length = 0 := by
        rcases Nat.eq_zero_or_pos ps.length with h0 | h0
        · exact h0
        · nlinarith
      exact List.length_eq_zero_iff.1 this
    subst this
    simp
  · dsimp only
    rw [if_pos h, deserializeParticles_eq hf]
    rfl

theorem sendMany_small (hf : fmt.Complete) (mss : List (List P)) (ch : Channel)
    (h : ∀ ps ∈ mss, ps.length * fmt.attributesSize < 2147483648) :
    sendMany fmt mss ch = .ok (ch ++ mss.map fun ps => ps.flatMap fun p => payload fmt p fmt.attributes) := by
  induction mss generalizing ch with
  | nil => simp [sendMany]
  | cons ps mss ih =>
    unfold sendMany
    rw [sendParticles_small hf ch ps (h ps (by simp))]
    simp only [Outcome.bind]
    rw [ih _ (fun x hx => h x (by simp [hx]))]
    simp

theorem receiveMany_eq (hf : fmt.Complete) (mss : List (List P)) (vs : List (List P)) (ch : Channel)
    (h : vs.length = mss.length) :
    receiveMany fmt vs ((mss.map fun ps => ps.flatMap fun p => payload fmt p fmt.attributes) ++ ch) =
      .ok (ch, List.zipWith (· ++ ·) vs mss) := by
  induction mss generalizing vs with
  | nil =>
    obtain rfl := List.length_eq_zero_iff.1 h
    simp [receiveMany]
  | cons ps mss ih =>
    obtain ⟨v, vs, rfl⟩ : ∃ v l, vs = v :: l := by
      cases vs with
      | nil => simp at h
      | cons v l => exact ⟨v, l, rfl⟩
    unfold receiveMany
    rw [List.map_cons, List.cons_append, receiveParticles_eq hf]
    simp only [Outcome.bind]
    rw [ih vs (by simpa using h)]
    simp

/-- A message too long for an `int` but not a multiple of 2^32: only the remainder is sent. -/
theorem sendParticles_wrapped (hf : fmt.Complete) (ch : Channel) (ps : List P) (k : Nat) (hk : k < 2147483648)
    (h : ps.length * fmt.attributesSize = 4294967296 + k) :
    sendParticles fmt ch ps = .ok (ch ++ [(ps.flatMap fun p => payload fmt p fmt.attributes).take k]) := by
  rw [sendParticles_data hf]
  rw [sendData_count _ _ k (by rw [flat_length hf, h]; exact toCInt_wrap hk)]

theorem sendParticles_negative (hf : fmt.Complete) (ch : Channel) (ps : List P)
    (h : 2147483648 ≤ ps.length * fmt.attributesSize) (h' : ps.length * fmt.attributesSize < 4294967296) :
    sendParticles fmt ch ps = .throws := by
  rw [sendParticles_data hf]
  exact sendData_negative _ _ (by rw [flat_length hf]; exact toCInt_negative h h')

theorem deserializeAttributes_short (data : List Byte) (off : Nat) (as : List A) (p : P) (i : Nat) (hne : as ≠ [])
    (h : data.length < off + i + 8 * as.length) : deserializeAttributes fmt data off as (p, i) = .ub := by
  induction as generalizing p i with
  | nil => exact absurd rfl hne
  | cons a as ih =>
    unfold deserializeAttributes deserializeAttribute copyFrom
    dsimp only
    by_cases hc : off + i + 8 ≤ data.length
    · rw [if_pos hc, bind_ok, bind_ok]
      rw [List.length_cons] at h
      refine ih _ _ ?_ (by omega)
      rintro rfl
      rw [List.length_nil] at h
      omega
    · rw [if_neg hc]
      rfl

theorem receiveParticles_short (hf : fmt.Complete) (msg : List Byte) (ch : Channel) (received : List P) (h0 : 0 < msg.length)
    (h1 : msg.length < fmt.attributesSize) : receiveParticles fmt (msg :: ch) received = .ub := by
  unfold receiveParticles deserializeParticles
  dsimp only
  rw [if_pos (List.ne_nil_of_length_pos h0)]
  obtain ⟨k, hk⟩ : ∃ k, msg.length = k + 1 := ⟨msg.length - 1, by omega⟩
  rw [hk]
  unfold deserializeLoop deserializeParticle
  have hp := hf.pos
  rw [if_pos (by omega), deserializeAttributes_short (fmt := fmt) msg 0 fmt.attributes fmt.default 0
    (List.ne_nil_of_length_pos hp) (by rw [← hf.size]; omega)]
  rfl

end Verif.Ser
