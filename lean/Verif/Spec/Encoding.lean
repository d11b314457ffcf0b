import Verif.Model.Encoding
import Verif.Spec.Dsv
/-!
# Specification vocabulary: encodings
-/

namespace Csvw.Spec

/-- What is encoded is decoded to the same text; an empty file is an empty text. -/
structure Lossless (c : Codecs) (e : Str) : Prop where
  same : ∀ s b, c.encode e s = .ok b → c.decode e b = .ok s
  empty : c.decode e [] = .ok []

/-- `utf-8-sig` decodes as `utf-8`, and drops a byte order mark at the beginning. -/
structure Utf8Sig (c : Codecs) : Prop where
  plain : ∀ b s, c.decode "utf-8".toList b = .ok s → s.head? ≠ some bom → c.decode "utf-8-sig".toList b = .ok s
  mark : ∀ b s, c.decode "utf-8".toList b = .ok (bom :: s) → c.decode "utf-8-sig".toList b = .ok s

/-- The codec for the encoding of a dialect: `UTF-8-BOM` means `utf-8-sig`. -/
inductive Codec (c : Codecs) (d : Dialect) : Str → Prop where
  | named {e : Str} : d.encoding = e → e ≠ "UTF-8-BOM".toList → c.lookup e = .ok () → Codec c d e
  | bom : d.encoding = "UTF-8-BOM".toList → c.lookup "utf-8-sig".toList = .ok () → Codec c d "utf-8-sig".toList

end Csvw.Spec
