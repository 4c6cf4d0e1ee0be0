import Verif.Model.Messages
/-!
# What is expected of a custom payload type

The message types are generic in the payload carried (`NativeTokenTransfer<A>`,
`NttManagerMessage<A>`).  Theorems about them hold for every payload type whose own codec is
lawful in this sense.
-/
namespace Ntt

/-- A payload codec is lawful when
* reading back what was written gives the value and leaves the following bytes,
* whatever it accepts, it accepts because of the bytes it consumed and of nothing after them,
* a declared size of zero means that nothing is written,
* `written_size` is the number of bytes written. -/
structure PayloadCodec.Lawful {A : Type} (c : PayloadCodec A) : Prop where
  roundtrip : ∀ a w, c.write a = some w → ∀ rest, c.read (w ++ rest) = .ok (a, rest)
  isLocal : ∀ bs a rest, c.read bs = .ok (a, rest) →
    ∃ used, bs = used ++ rest ∧ ∀ rest', c.read (used ++ rest') = .ok (a, rest')
  sizeZero : c.size = some 0 → ∀ a, c.write a = some []
  sizeOk : ∀ a w, c.write a = some w → c.writtenSize a = w.length

end Ntt
