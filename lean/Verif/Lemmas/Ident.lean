import Verif.Model.Ident
/-!
# Different names are different numbers
-/

namespace Verif

/-- Names with characters below 256 (and without the character zero, which no name has) that have the same number are the same. -/
theorem encodeChars_inj : ∀ {l k : List Char}, (∀ c ∈ l, 0 < c.toNat ∧ c.toNat < 256) → (∀ c ∈ k, 0 < c.toNat ∧ c.toNat < 256) →
    encodeChars l = encodeChars k → l = k
  | [], [], _, _, _ => rfl
  | [], c :: k, _, hk, h => by
    have := hk c (by simp)
    simp only [encodeChars] at h
    omega
  | c :: l, [], hl, _, h => by
    have := hl c (by simp)
    simp only [encodeChars] at h
    omega
  | c :: l, d :: k, hl, hk, h => by
    have h1 := hl c (by simp)
    have h2 := hk d (by simp)
    simp only [encodeChars] at h
    have e : c = d := Char.toNat_inj.1 (by omega)
    have := encodeChars_inj (fun x hx => hl x (by simp [hx])) (fun x hx => hk x (by simp [hx])) (l := l) (k := k) (by omega)
    rw [e, this]

theorem encode_inj {s t : String} (hs : ∀ c ∈ s.toList, 0 < c.toNat ∧ c.toNat < 256) (ht : ∀ c ∈ t.toList, 0 < c.toNat ∧ c.toNat < 256)
    (h : encode s = encode t) : s = t := String.toList_inj.1 (encodeChars_inj hs ht h)

example : n!"power_spectrum_1d" = encode "power_spectrum_1d" := by decide +kernel

end Verif
