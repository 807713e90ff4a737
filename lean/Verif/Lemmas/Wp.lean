import Verif.Lemmas.Run
import Verif.Lemmas.Memory
import Verif.Model.Skip
/-!
# A small program logic for readers on arbitrary input
-/

namespace Thrift

/-- Started in state `s` with input `inp`, the reader `m` either returns with a
result, state and remaining input satisfying `Q`, or panics with remaining input
satisfying `X`; it never runs out of fuel and writes nothing. -/
def Wp (m : P π α) (s : π) (inp : Bytes) (Q : α → π → Bytes → Prop) (X : Bytes → Prop) : Prop :=
  ∀ out, (∃ a s' inp', m.run duplex s (inp, out) = (.ok (a, s'), (inp', out)) ∧ Q a s' inp') ∨
    (∃ inp', m.run duplex s (inp, out) = (.panic, (inp', out)) ∧ X inp')

namespace Wp
variable {s : π} {inp : Bytes} {X : Bytes → Prop}

theorem mono {m : P π α} {Q Q' : α → π → Bytes → Prop} (h : Wp m s inp Q X)
    (hq : ∀ a s' i, Q a s' i → Q' a s' i) : Wp m s inp Q' X := by
  intro out
  rcases h out with ⟨a, s', i, h1, h2⟩ | h
  · exact .inl ⟨a, s', i, h1, hq _ _ _ h2⟩
  · exact .inr h

theorem monoX {X' : Bytes → Prop} {m : P π α} {Q : α → π → Bytes → Prop} (h : Wp m s inp Q X)
    (hx : ∀ i, X i → X' i) : Wp m s inp Q X' := by
  intro out
  rcases h out with h | ⟨i, h1, h2⟩
  · exact .inl h
  · exact .inr ⟨i, h1, hx _ h2⟩

theorem pure {a : α} {Q : α → π → Bytes → Prop} (h : Q a s inp) :
    Wp (Pure.pure a : P π α) s inp Q X :=
  fun _ => .inl ⟨a, s, inp, rfl, h⟩

theorem get {Q : π → π → Bytes → Prop} (h : Q s s inp) : Wp (P.get : P π π) s inp Q X :=
  fun _ => .inl ⟨s, s, inp, rfl, h⟩

theorem modify {f : π → π} {Q : Unit → π → Bytes → Prop} (h : Q () (f s) inp) :
    Wp (P.modify f) s inp Q X :=
  fun _ => .inl ⟨(), f s, inp, rfl, h⟩

theorem panic {Q : α → π → Bytes → Prop} (h : X inp) : Wp (P.panic : P π α) s inp Q X :=
  fun _ => .inr ⟨inp, rfl, h⟩

theorem bind {m : P π α} {k : α → P π β} {Q : α → π → Bytes → Prop} {R : β → π → Bytes → Prop}
    (hm : Wp m s inp Q X) (hk : ∀ a s' i, Q a s' i → Wp (k a) s' i R X) : Wp (m >>= k) s inp R X := by
  intro out
  rcases hm out with ⟨a, s', i, h1, h2⟩ | ⟨i, h1, h2⟩
  · rcases hk a s' i h2 out with ⟨b, s'', i', h3, h4⟩ | ⟨i', h3, h4⟩
    · exact .inl ⟨b, s'', i', by simp [h1, h3], h4⟩
    · exact .inr ⟨i', by simp [h1, h3], h4⟩
  · exact .inr ⟨i, by simp [h1], h2⟩

theorem ite {c : Prop} [Decidable c] {a b : P π α} {Q : α → π → Bytes → Prop}
    (ha : c → Wp a s inp Q X) (hb : ¬ c → Wp b s inp Q X) : Wp (if c then a else b) s inp Q X := by
  split
  · exact ha ‹_›
  · exact hb ‹_›

theorem readAll {n : Nat} {Q : ReadAllResult → π → Bytes → Prop}
    (h1 : n ≤ inp.length → Q ⟨inp.take n, n, none⟩ s (inp.drop n))
    (h2 : inp.length < n → Q ⟨fillBuf n inp, 0, some readAllErr⟩ s []) :
    Wp (P.readAll n : P π _) s inp Q X := by
  intro out
  rw [P.run_readAll_duplex]
  by_cases h : n ≤ inp.length
  · exact .inl ⟨_, _, _, by rw [if_pos h], h1 h⟩
  · exact .inl ⟨_, _, _, by rw [if_neg h], h2 (by omega)⟩

/-- A loop of `n` rounds preserving `I`. -/
theorem repeatN {body : P π Unit} {I : π → Bytes → Prop} (h : ∀ s i, I s i → Wp body s i (fun _ => I) X) :
    ∀ (n : Nat) (s : π) (inp : Bytes), I s inp → Wp (Thrift.repeatN n body) s inp (fun _ => I) X
  | 0, _, _, hi => Wp.pure hi
  | n + 1, _, _, hi => Wp.bind (h _ _ hi) fun _ _ _ hi' => repeatN h n _ _ hi'

/-- The same on a memory buffer. -/
theorem memory {m : P π α} {Q : α → π → Bytes → Prop} (h : Wp m s inp Q X) :
    (∃ a s' inp', m.run memory s inp = (.ok (a, s'), inp') ∧ Q a s' inp') ∨
    (∃ inp', m.run memory s inp = (.panic, inp') ∧ X inp') := by
  rcases h [] with ⟨a, s', i, h1, h2⟩ | ⟨i, h1, h2⟩
  · exact .inl ⟨a, s', i, memory_of_reads (m s) _ _ [] _ h1, h2⟩
  · exact .inr ⟨i, memory_of_reads (m s) _ _ [] _ h1, h2⟩

end Wp
end Thrift
