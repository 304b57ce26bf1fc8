/-!
# The documented Sequence Table

Written by `tools/gen_doc.py` from `/repo/docs/BasicText.md:65-169`: the rows that replace a single scalar.
-/

namespace Verif.Tables

/-- Scalars from the first to the second are replaced by the list. -/
def docRows : List ((Nat × Nat) × List Nat) := [
  ((0x0, 0x8), [0xfffd]), ((0xb, 0xb), [0xfffd]), ((0xe, 0x1f), [0xfffd]), ((0x7f, 0x7f), [0xfffd]),
  ((0x85, 0x85), [0x20]), ((0x80, 0x84), [0xfffd]), ((0x86, 0x9f), [0xfffd]),
  ((0x149, 0x149), [0x2bc, 0x6e]), ((0x673, 0x673), [0x627, 0x65f]), ((0x9e4, 0x9e4), [0xfffd]),
  ((0x9e5, 0x9e5), [0xfffd]), ((0xa64, 0xa64), [0xfffd]), ((0xa65, 0xa65), [0xfffd]),
  ((0xae4, 0xae4), [0xfffd]), ((0xae5, 0xae5), [0xfffd]), ((0xb64, 0xb64), [0xfffd]),
  ((0xb65, 0xb65), [0xfffd]), ((0xbe4, 0xbe4), [0xfffd]), ((0xbe5, 0xbe5), [0xfffd]),
  ((0xc64, 0xc64), [0xfffd]), ((0xc65, 0xc65), [0xfffd]), ((0xce4, 0xce4), [0xfffd]),
  ((0xce5, 0xce5), [0xfffd]), ((0xd64, 0xd64), [0xfffd]), ((0xd65, 0xd65), [0xfffd]),
  ((0xf77, 0xf77), [0xfb2, 0xf71, 0xf80]), ((0xf79, 0xf79), [0xfb3, 0xf71, 0xf80]),
  ((0x17a3, 0x17a3), [0x17a2]), ((0x17a4, 0x17a4), [0x17a2, 0x17b6]), ((0x17b4, 0x17b4), [0xfffd]),
  ((0x17b5, 0x17b5), [0xfffd]), ((0x17d8, 0x17d8), [0xfffd]), ((0x2028, 0x2028), [0x20]),
  ((0x2029, 0x2029), [0x20]), ((0x202a, 0x202a), [0xfffd]), ((0x202b, 0x202b), [0xfffd]),
  ((0x202c, 0x202c), [0xfffd]), ((0x202d, 0x202d), [0xfffd]), ((0x202e, 0x202e), [0xfffd]),
  ((0x2066, 0x2066), [0xfffd]), ((0x2067, 0x2067), [0xfffd]), ((0x2068, 0x2068), [0xfffd]),
  ((0x2069, 0x2069), [0xfffd]), ((0x206a, 0x206f), [0xfffd]), ((0x2072, 0x2072), [0xfffd]),
  ((0x2073, 0x2073), [0xfffd]), ((0x2126, 0x2126), [0x3a9]), ((0x212a, 0x212a), [0x4b]),
  ((0x212b, 0x212b), [0xc5]), ((0x2329, 0x2329), [0xfffd]), ((0x232a, 0x232a), [0xfffd]),
  ((0x2df5, 0x2df5), [0x2ded, 0x2dee]), ((0xfb00, 0xfb00), [0x66, 0x66]), ((0xfb01, 0xfb01), [0x66, 0x69]),
  ((0xfb02, 0xfb02), [0x66, 0x6c]), ((0xfb03, 0xfb03), [0x66, 0x66, 0x66]),
  ((0xfb04, 0xfb04), [0x66, 0x66, 0x6c]), ((0xfb05, 0xfb05), [0x17f, 0x74]),
  ((0xfb06, 0xfb06), [0x73, 0x74]), ((0xfdd0, 0xfdef), [0xfffd]), ((0xfeff, 0xfeff), [0x2060]),
  ((0xfff9, 0xfffb), [0xfffd]), ((0xfffc, 0xfffc), [0xfffd]), ((0xfffe, 0xfffe), [0xfffd]),
  ((0xffff, 0xffff), [0xfffd]), ((0x1d455, 0x1d455), [0xfffd]), ((0x1d49d, 0x1d49d), [0xfffd]),
  ((0x1d4a0, 0x1d4a0), [0xfffd]), ((0x1d4a1, 0x1d4a1), [0xfffd]), ((0x1d4a3, 0x1d4a3), [0xfffd]),
  ((0x1d4a4, 0x1d4a4), [0xfffd]), ((0x1d4a7, 0x1d4a7), [0xfffd]), ((0x1d4a8, 0x1d4a8), [0xfffd]),
  ((0x1d4ad, 0x1d4ad), [0xfffd]), ((0x1d4ba, 0x1d4ba), [0xfffd]), ((0x1d4bc, 0x1d4bc), [0xfffd]),
  ((0x1d4c4, 0x1d4c4), [0xfffd]), ((0x1d506, 0x1d506), [0xfffd]), ((0x1d50b, 0x1d50b), [0xfffd]),
  ((0x1d50c, 0x1d50c), [0xfffd]), ((0x1d515, 0x1d515), [0xfffd]), ((0x1d51d, 0x1d51d), [0xfffd]),
  ((0x1d53a, 0x1d53a), [0xfffd]), ((0x1d53f, 0x1d53f), [0xfffd]), ((0x1d545, 0x1d545), [0xfffd]),
  ((0x1d547, 0x1d547), [0xfffd]), ((0x1d548, 0x1d548), [0xfffd]), ((0x1d549, 0x1d549), [0xfffd]),
  ((0x1d551, 0x1d551), [0xfffd]), ((0x1fffe, 0x1fffe), [0xfffd]), ((0x1ffff, 0x1ffff), [0xfffd]),
  ((0x111c4, 0x111c4), [0x1118f, 0x11180]), ((0x2fffe, 0x2fffe), [0xfffd]), ((0x2ffff, 0x2ffff), [0xfffd]),
  ((0x3fffe, 0x3fffe), [0xfffd]), ((0x3ffff, 0x3ffff), [0xfffd]), ((0x4fffe, 0x4fffe), [0xfffd]),
  ((0x4ffff, 0x4ffff), [0xfffd]), ((0x5fffe, 0x5fffe), [0xfffd]), ((0x5ffff, 0x5ffff), [0xfffd]),
  ((0x6fffe, 0x6fffe), [0xfffd]), ((0x6ffff, 0x6ffff), [0xfffd]), ((0x7fffe, 0x7fffe), [0xfffd]),
  ((0x7ffff, 0x7ffff), [0xfffd]), ((0x8fffe, 0x8fffe), [0xfffd]), ((0x8ffff, 0x8ffff), [0xfffd]),
  ((0x9fffe, 0x9fffe), [0xfffd]), ((0x9ffff, 0x9ffff), [0xfffd]), ((0xafffe, 0xafffe), [0xfffd]),
  ((0xaffff, 0xaffff), [0xfffd]), ((0xbfffe, 0xbfffe), [0xfffd]), ((0xbffff, 0xbffff), [0xfffd]),
  ((0xcfffe, 0xcfffe), [0xfffd]), ((0xcffff, 0xcffff), [0xfffd]), ((0xdfffe, 0xdfffe), [0xfffd]),
  ((0xdffff, 0xdffff), [0xfffd]), ((0xe0001, 0xe0001), [0xfffd]), ((0xefffe, 0xefffe), [0xfffd]),
  ((0xeffff, 0xeffff), [0xfffd]), ((0xffffe, 0xffffe), [0xfffd]), ((0xfffff, 0xfffff), [0xfffd]),
  ((0x10fffe, 0x10fffe), [0xfffd]), ((0x10ffff, 0x10ffff), [0xfffd])]

/-- Scalars replaced by their CJK compatibility ideograph standardized variant. -/
def docCjk : List (Nat × Nat) := [
  (0xf900, 0xfa0d), (0xfa10, 0xfa10), (0xfa12, 0xfa12), (0xfa15, 0xfa1e), (0xfa20, 0xfa20), (0xfa22, 0xfa22),
  (0xfa25, 0xfa26), (0xfa2a, 0xfa6d), (0xfa70, 0xfad9), (0x2f800, 0x2fa1d)]

end Verif.Tables
