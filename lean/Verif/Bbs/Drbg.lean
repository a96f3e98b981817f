import Verif.Base.GoRes
import Verif.Base.Tactics

/-! Model of `/repo/crypto/signatures/common/hmacdrbg.go` and theorems **C80**.

`hm k m` is HMAC under the configured hash (an arbitrary function of key and message), `size` the size of its
output.  Writes to a running HMAC accumulate: `Sum` sees their concatenation. -/

namespace Verif.Bbs.Drbg

open Verif

abbrev Mac := List UInt8 → List UInt8 → List UInt8

/-- hmacdrbg.go:17-21 `HmacDrbg` (the hash is the parameter `hm` of the functions) -/
structure State where
  k : List UInt8
  v : List UInt8
  count : Nat
deriving DecidableEq

/-- hmacdrbg.go:69-99 `update`; `seeds` is the slice of slices, empty for nil -/
def update (hm : Mac) (d : State) (seeds : List (List UInt8)) : State :=
  let k := hm d.k (d.v ++ [0] ++ seeds.flatten)
  let v := hm k d.v
  if seeds.length = 0 then { d with k := k, v := v }
  else
    let k := hm k (v ++ [1] ++ seeds.flatten)
    let v := hm k v
    { d with k := k, v := v }

/-- hmacdrbg.go:23-38 `NewHmacDrbg` -/
def new (hm : Mac) (size : Nat) (entropy nonce pers : List UInt8) : State :=
  let d : State := { k := List.replicate size 0, v := List.replicate size 1, count := 0 }
  let d := update hm d [entropy, nonce, pers]
  { d with count := d.count + 1 }

/-- hmacdrbg.go:51-53: `dst[i+j] = b` for `j, b := range v`; an index past the end panics -/
def store (dst : List UInt8) (i : Nat) : List UInt8 → Res (List UInt8)
  | [] => .ok dst
  | b :: bs => if i < dst.length then store (dst.set i b) (i + 1) bs else .panic

/-- hmacdrbg.go:46-55: the loop, returning the final `i`, `v` and buffer.  `fuel` bounds the number of
iterations; `.err` means the bound was too small, which the theorems exclude. -/
def readLoop (hm : Mac) (k : List UInt8) (toRead : Nat) :
    Nat → Nat → List UInt8 → List UInt8 → Res (Nat × List UInt8 × List UInt8)
  | 0, _, _, _ => .err
  | fuel + 1, i, v, dst =>
    if i < toRead then do
      let v := hm k v
      let dst ← store dst i v
      readLoop hm k toRead fuel (i + v.length) v dst
    else .ok (i, v, dst)

/-- hmacdrbg.go:40-59 `Read`: the count returned, the buffer and the generator after the call -/
def read (hm : Mac) (d : State) (dst : List UInt8) : Res (Nat × List UInt8 × State) :=
  if dst.length = 0 then .ok (0, dst, d)
  else do
    let (i, v, dst) ← readLoop hm d.k dst.length (dst.length + 1) 0 d.v dst
    let d := update hm { d with v := v } []
    .ok (i, dst, { d with count := d.count + 1 })

/-- hmacdrbg.go:61-63 `Reseed` -/
def reseed (hm : Mac) (d : State) (entropy : List UInt8) : State := update hm d [entropy]

/-! ### Specification: HMAC_DRBG of NIST SP 800-90A rev. 1, section 10.1.2, on a pair (Key, V) -/

/-- 10.1.2.2 HMAC_DRBG_Update; no provided data is `none` -/
def nistUpdate (hm : Mac) (provided : Option (List UInt8)) (s : List UInt8 × List UInt8) : List UInt8 × List UInt8 :=
  match provided with
  | none =>
    let key := hm s.1 (s.2 ++ [0x00])
    (key, hm key s.2)
  | some data =>
    let key := hm s.1 (s.2 ++ 0x00 :: data)
    let v := hm key s.2
    let key := hm key (v ++ 0x01 :: data)
    (key, hm key v)

/-- 10.1.2.3 HMAC_DRBG_Instantiate -/
def nistInstantiate (hm : Mac) (size : Nat) (seedMaterial : List UInt8) : List UInt8 × List UInt8 :=
  nistUpdate hm (some seedMaterial) (List.replicate size 0x00, List.replicate size 0x01)

/-- 10.1.2.5 step 4 of HMAC_DRBG_Generate: `n` successive blocks `V = HMAC(Key, V)` -/
def nistBlocks (hm : Mac) (key : List UInt8) : Nat → List UInt8 → List UInt8
  | 0, _ => []
  | n + 1, v => hm key v ++ nistBlocks hm key n (hm key v)

/-- the value of `V` after `n` blocks -/
def nistV (hm : Mac) (key : List UInt8) : Nat → List UInt8 → List UInt8
  | 0, v => v
  | n + 1, v => nistV hm key n (hm key v)

/-! ### Lemmas -/

theorem store_ok : ∀ (v dst pre mid suf : List UInt8), dst = pre ++ mid ++ suf → mid.length = v.length →
    store dst pre.length v = .ok (pre ++ v ++ suf)
  | [], dst, pre, mid, suf, e, h => by
    have : mid = [] := List.eq_nil_of_length_eq_zero h
    subst this
    simp [store, e]
  | b :: bs, dst, pre, [], suf, e, h => by simp at h
  | b :: bs, dst, pre, m :: mid, suf, e, h => by
    rw [store, if_pos (by rw [e]; simp)]
    have e2 : dst.set pre.length b = (pre ++ [b]) ++ mid ++ suf := by
      rw [e]
      simp
    have := store_ok bs (dst.set pre.length b) (pre ++ [b]) mid suf e2 (by simpa using h)
    rw [List.length_append] at this
    simpa using this

theorem store_panic : ∀ (v dst : List UInt8) (i : Nat), i ≤ dst.length → dst.length < i + v.length →
    store dst i v = .panic
  | [], dst, i, _, h => by simp at h; omega
  | b :: bs, dst, i, h0, h => by
    rw [store]
    split
    · rename_i hi
      rw [List.length_cons] at h
      exact store_panic bs _ (i + 1) (by rw [List.length_set]; omega) (by rw [List.length_set]; omega)
    · rfl

theorem nistBlocks_len {hm : Mac} {size : Nat} (hs : ∀ k m, (hm k m).length = size) (k : List UInt8) :
    ∀ n v, (nistBlocks hm k n v).length = n * size
  | 0, v => by simp [nistBlocks]
  | n + 1, v => by
    rw [nistBlocks, List.length_append, hs, nistBlocks_len hs k n]
    rw [Nat.succ_mul, Nat.add_comm]

theorem nistBlocks_add (hm : Mac) (k : List UInt8) : ∀ n m v,
    nistBlocks hm k (n + m) v = nistBlocks hm k n v ++ nistBlocks hm k m (nistV hm k n v)
  | 0, m, v => by simp [nistBlocks, nistV]
  | n + 1, m, v => by
    rw [show n + 1 + m = (n + m) + 1 by omega, nistBlocks, nistBlocks, nistV, nistBlocks_add hm k n m,
      List.append_assoc]

theorem loop_ok {hm : Mac} {size : Nat} (hs : ∀ k m, (hm k m).length = size) (hp : 0 < size) (k : List UInt8) :
    ∀ (n fuel : Nat) (v pre mid : List UInt8), mid.length = n * size → n < fuel →
      readLoop hm k (pre.length + n * size) fuel pre.length v (pre ++ mid) =
        .ok (pre.length + n * size, nistV hm k n v, pre ++ nistBlocks hm k n v)
  | 0, fuel, v, pre, mid, h, hf => by
    obtain ⟨f, rfl⟩ : ∃ f, fuel = f + 1 := ⟨fuel - 1, by omega⟩
    have : mid = [] := List.eq_nil_of_length_eq_zero (by simpa using h)
    subst this
    rw [readLoop, if_neg (by omega)]
    simp [nistBlocks, nistV]
  | n + 1, fuel, v, pre, mid, h, hf => by
    obtain ⟨f, rfl⟩ : ∃ f, fuel = f + 1 := ⟨fuel - 1, by omega⟩
    have hpos : 0 < (n + 1) * size := Nat.mul_pos (by omega) hp
    rw [readLoop, if_pos (by omega)]
    have hmul : (n + 1) * size = n * size + size := Nat.succ_mul _ _
    have e1 := store_ok (hm k v) (pre ++ mid) pre (mid.take size) (mid.drop size)
      (by rw [List.append_assoc, List.take_append_drop]) (by rw [hs, List.length_take]; omega)
    simp only [e1, Res.bind_ok, hs]
    have ih := loop_ok hs hp k n f (hm k v) (pre ++ hm k v) (mid.drop size)
      (by rw [List.length_drop]; omega) (by omega)
    rw [List.length_append, hs, show pre.length + size + n * size = pre.length + (n + 1) * size by omega] at ih
    rw [ih, nistV, nistBlocks, List.append_assoc]

theorem loop_panic {hm : Mac} {size : Nat} (hs : ∀ k m, (hm k m).length = size) (hp : 0 < size) (k : List UInt8) :
    ∀ (fuel i : Nat) (v dst : List UInt8), i < dst.length → ¬ size ∣ dst.length - i → dst.length - i < fuel →
      readLoop hm k dst.length fuel i v dst = .panic
  | 0, i, v, dst, hi, hd, hf => by omega
  | fuel + 1, i, v, dst, hi, hd, hf => by
    rw [readLoop, if_pos hi]
    simp only [hs]
    by_cases h : dst.length < i + size
    · rw [store_panic _ _ _ hi.le (by rw [hs]; exact h)]
      rfl
    · have e1 := store_ok (hm k v) dst (dst.take i) ((dst.drop i).take size) ((dst.drop i).drop size)
        (by rw [List.append_assoc, List.take_append_drop, List.take_append_drop])
        (by rw [hs, List.length_take, List.length_drop]; omega)
      rw [List.length_take, Nat.min_eq_left hi.le] at e1
      rw [e1, Res.bind_ok]
      have hne : i + size ≠ dst.length := by
        intro he
        exact hd ⟨1, by omega⟩
      have hlen : (dst.take i ++ hm k v ++ (dst.drop i).drop size).length = dst.length := by
        simp only [List.length_append, List.length_take, List.length_drop, hs]
        omega
      have := loop_panic hs hp k fuel (i + size) (hm k v) (dst.take i ++ hm k v ++ (dst.drop i).drop size)
        (by omega) (by
          rw [hlen]
          rintro ⟨c, hc⟩
          exact hd ⟨c + 1, by rw [Nat.mul_succ]; omega⟩) (by omega)
      rw [hlen] at this
      exact this

theorem read_ok {hm : Mac} {size : Nat} (hs : ∀ k m, (hm k m).length = size) (hp : 0 < size) (d : State)
    (n : Nat) (hn : 0 < n) (dst : List UInt8) (hd : dst.length = n * size) :
    read hm d dst = .ok (n * size, nistBlocks hm d.k n d.v,
      let d' := update hm { d with v := nistV hm d.k n d.v } []
      { d' with count := d'.count + 1 }) := by
  have hpos : 0 < n * size := Nat.mul_pos hn hp
  have hle : n ≤ n * size := Nat.le_mul_of_pos_right n hp
  unfold read
  rw [if_neg (by omega)]
  have := loop_ok hs hp d.k n (dst.length + 1) d.v [] dst hd (by omega)
  simp only [List.length_nil, List.nil_append, Nat.zero_add] at this
  rw [← hd] at this
  rw [this]
  simp only [Res.bind_ok, hd]

/-! ### Theorems -/

/-- **C80** Instantiation and reseeding are those of the standard on the concatenated seed material: the state
depends on entropy, nonce and personalization only through `entropy ‖ nonce ‖ personalization`, so shifting
the boundaries between them changes nothing.  `count` starts at one and reseeding leaves it. -/
theorem C80_seed (hm : Mac) (size : Nat) (entropy nonce pers : List UInt8) (d : State) :
    ((new hm size entropy nonce pers).k, (new hm size entropy nonce pers).v) =
      nistInstantiate hm size (entropy ++ nonce ++ pers) ∧
    (new hm size entropy nonce pers).count = 1 ∧
    ((reseed hm d entropy).k, (reseed hm d entropy).v) = nistUpdate hm (some entropy) (d.k, d.v) ∧
    (reseed hm d entropy).count = d.count := by
  refine ⟨?_, ?_, ?_, ?_⟩
  · simp [new, update, nistInstantiate, nistUpdate]
  · simp [new, update]
  · simp [reseed, update, nistUpdate]
  · simp [reseed, update]

/-- **C80** Two generators whose seed parts have the same concatenation are the same generator. -/
theorem C80_seed_split (hm : Mac) (size : Nat) (e n p e' n' p' : List UInt8)
    (h : e ++ n ++ p = e' ++ n' ++ p') : new hm size e n p = new hm size e' n' p' := by
  have h' : e ++ (n ++ p) = e' ++ (n' ++ p') := by simpa using h
  simp [new, update, h']

/-- **C80** A read whose buffer is a positive multiple of the block size never fails, fills the whole buffer
with the standard's blocks whatever was in it, reports its length, and leaves the generator in the standard's
state after a generate call without additional input; `count` goes up by one. -/
theorem C80_read {hm : Mac} {size : Nat} (hs : ∀ k m, (hm k m).length = size) (hp : 0 < size) (d : State)
    (n : Nat) (hn : 0 < n) (dst : List UInt8) (hd : dst.length = n * size) :
    ∃ d', read hm d dst = .ok (dst.length, nistBlocks hm d.k n d.v, d') ∧
      (nistBlocks hm d.k n d.v).length = dst.length ∧
      (d'.k, d'.v) = nistUpdate hm none (d.k, nistV hm d.k n d.v) ∧ d'.count = d.count + 1 := by
  refine ⟨_, by rw [read_ok hs hp d n hn dst hd, hd], by rw [nistBlocks_len hs, hd], ?_, ?_⟩
  · simp [update, nistUpdate]
  · simp [update]

/-- **C80** A read into an empty buffer changes nothing; a read whose length is not a multiple of the block
size panics (index out of range), for every state and buffer. -/
theorem C80_read_other {hm : Mac} {size : Nat} (hs : ∀ k m, (hm k m).length = size) (hp : 0 < size) (d : State) :
    read hm d [] = .ok (0, [], d) ∧
    (∀ dst : List UInt8, ¬ size ∣ dst.length → read hm d dst = .panic) ∧
    (∀ dst : List UInt8, read hm d dst ≠ .err) := by
  have hpan : ∀ dst : List UInt8, ¬ size ∣ dst.length → read hm d dst = .panic := by
    intro dst h
    have h0 : dst.length ≠ 0 := fun he => h ⟨0, by simpa using he⟩
    unfold read
    rw [if_neg h0, loop_panic hs hp d.k (dst.length + 1) 0 d.v dst (by omega) (by simpa using h) (by omega)]
    rfl
  refine ⟨rfl, hpan, ?_⟩
  intro dst
  by_cases h : size ∣ dst.length
  · by_cases h0 : dst.length = 0
    · unfold read
      rw [if_pos h0]
      nofun
    · obtain ⟨c, hc⟩ := h
      have : 0 < c := by
        rcases Nat.eq_zero_or_pos c with rfl | h
        · simp at hc
          exact absurd (by rw [hc]; rfl) h0
        · exact h
      rw [read_ok hs hp d c this dst (by rw [hc, Nat.mul_comm])]
      nofun
  · rw [hpan dst h]
    nofun

/-- **C80** From the same state, the output of a shorter read is a prefix of the output of a longer one. -/
theorem C80_prefix {hm : Mac} {size : Nat} (hs : ∀ k m, (hm k m).length = size) (hp : 0 < size) (d : State)
    (dst dst' : List UInt8) (hle : dst.length ≤ dst'.length) {n n' : Nat} {out out' : List UInt8} {d1 d1' : State}
    (h : read hm d dst = .ok (n, out, d1)) (h' : read hm d dst' = .ok (n', out', d1')) : out <+: out' := by
  have hdvd : ∀ {x : List UInt8} {r}, read hm d x = .ok r → ∃ c, x.length = c * size := by
    intro x r hx
    by_contra hc
    have := (C80_read_other hs hp d).2.1 x (fun ⟨c, e⟩ => hc ⟨c, by rw [e, Nat.mul_comm]⟩)
    rw [this] at hx
    exact nomatch hx
  obtain ⟨c, hc⟩ := hdvd h
  obtain ⟨c', hc'⟩ := hdvd h'
  rcases Nat.eq_zero_or_pos c with rfl | hpos
  · have : dst = [] := List.eq_nil_of_length_eq_zero (by simpa using hc)
    subst this
    rw [(C80_read_other hs hp d).1] at h
    injection h with h
    injection h with _ h
    injection h with h _
    subst h
    exact List.nil_prefix
  · have hcc : c ≤ c' := by
      by_contra hlt
      have : c' + 1 ≤ c := by omega
      have := Nat.mul_le_mul_right size this
      rw [Nat.succ_mul] at this
      omega
    rw [read_ok hs hp d c hpos dst hc] at h
    rw [read_ok hs hp d c' (by omega) dst' hc'] at h'
    injection h with h
    injection h with _ h
    injection h with h _
    injection h' with h'
    injection h' with _ h'
    injection h' with h' _
    subst h h'
    obtain ⟨m, rfl⟩ := Nat.exists_eq_add_of_le hcc
    rw [nistBlocks_add]
    exact List.prefix_append _ _

end Verif.Bbs.Drbg
