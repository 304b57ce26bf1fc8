import Verif.Table

/-!
# Search trees for unions of the repository tables

Written by `tools/gen_tables.py`; only used to speed up evaluation, and proved equal to the
transcribed tables in `Verif/CharData.lean`.
-/

namespace Verif.Tables

def notStartTree_0 : RTree :=
  (.node (.node (.node (.node (.node (.node (.node .leaf 0x300 0x34e 1 .leaf) 0x350 0x36f 1 .leaf)
  0x483 0x489 1 (.node .leaf 0x591 0x5bd 1 .leaf)) 0x5bf 0x5bf 1 (.node (.node (.node .leaf 0x5c1
  0x5c2 1 .leaf) 0x5c4 0x5c5 1 .leaf) 0x5c7 0x5c7 1 (.node .leaf 0x610 0x61a 1 .leaf))) 0x64b
  0x65f 1 (.node (.node (.node (.node .leaf 0x670 0x670 1 .leaf) 0x6d6 0x6dc 1 .leaf) 0x6df 0x6e4
  1 (.node .leaf 0x6e7 0x6e8 1 .leaf)) 0x6ea 0x6ed 1 (.node (.node (.node .leaf 0x711 0x711 1
  .leaf) 0x730 0x74a 1 .leaf) 0x7a6 0x7b0 1 (.node .leaf 0x7eb 0x7f3 1 .leaf)))) 0x7fd 0x7fd 1
  (.node (.node (.node (.node (.node .leaf 0x816 0x819 1 .leaf) 0x81b 0x823 1 .leaf) 0x825 0x827 1
  (.node .leaf 0x829 0x82d 1 .leaf)) 0x859 0x85b 1 (.node (.node (.node .leaf 0x898 0x89f 1 .leaf)
  0x8ca 0x8e1 1 .leaf) 0x8e3 0x903 1 (.node .leaf 0x93a 0x93c 1 .leaf))) 0x93e 0x94f 1 (.node
  (.node (.node (.node .leaf 0x951 0x957 1 .leaf) 0x962 0x963 1 .leaf) 0x981 0x983 1 (.node .leaf
  0x9bc 0x9bc 1 .leaf)) 0x9be 0x9c4 1 (.node (.node (.node .leaf 0x9c7 0x9c8 1 .leaf) 0x9cb 0x9cd
  1 .leaf) 0x9d7 0x9d7 1 (.node .leaf 0x9e2 0x9e3 1 .leaf))))) 0x9fe 0x9fe 1 (.node (.node (.node
  (.node (.node (.node .leaf 0xa01 0xa03 1 .leaf) 0xa3c 0xa3c 1 .leaf) 0xa3e 0xa42 1 (.node .leaf
  0xa47 0xa48 1 .leaf)) 0xa4b 0xa4d 1 (.node (.node (.node .leaf 0xa51 0xa51 1 .leaf) 0xa70 0xa71
  1 .leaf) 0xa75 0xa75 1 (.node .leaf 0xa81 0xa83 1 .leaf))) 0xabc 0xabc 1 (.node (.node (.node
  (.node .leaf 0xabe 0xac5 1 .leaf) 0xac7 0xac9 1 .leaf) 0xacb 0xacd 1 (.node .leaf 0xae2 0xae3 1
  .leaf)) 0xafa 0xaff 1 (.node (.node (.node .leaf 0xb01 0xb03 1 .leaf) 0xb3c 0xb3c 1 .leaf) 0xb3e
  0xb44 1 (.node .leaf 0xb47 0xb48 1 .leaf)))) 0xb4b 0xb4d 1 (.node (.node (.node (.node (.node
  .leaf 0xb55 0xb57 1 .leaf) 0xb62 0xb63 1 .leaf) 0xb82 0xb82 1 (.node .leaf 0xbbe 0xbc2 1 .leaf))
  0xbc6 0xbc8 1 (.node (.node (.node .leaf 0xbca 0xbcd 1 .leaf) 0xbd7 0xbd7 1 .leaf) 0xc00 0xc04 1
  (.node .leaf 0xc3c 0xc3c 1 .leaf))) 0xc3e 0xc44 1 (.node (.node (.node (.node .leaf 0xc46 0xc48
  1 .leaf) 0xc4a 0xc4d 1 .leaf) 0xc55 0xc56 1 (.node .leaf 0xc62 0xc63 1 .leaf)) 0xc81 0xc83 1
  (.node (.node (.node .leaf 0xcbc 0xcbc 1 .leaf) 0xcbe 0xcc4 1 .leaf) 0xcc6 0xcc8 1 (.node .leaf
  0xcca 0xccd 1 .leaf))))))

def notStartTree_1 : RTree :=
  (.node (.node (.node (.node (.node (.node (.node .leaf 0xce2 0xce3 1 .leaf) 0xcf3 0xcf3 1 .leaf)
  0xd00 0xd03 1 (.node .leaf 0xd3b 0xd3c 1 .leaf)) 0xd3e 0xd44 1 (.node (.node (.node .leaf 0xd46
  0xd48 1 .leaf) 0xd4a 0xd4d 1 .leaf) 0xd57 0xd57 1 (.node .leaf 0xd62 0xd63 1 .leaf))) 0xd81
  0xd83 1 (.node (.node (.node (.node .leaf 0xdca 0xdca 1 .leaf) 0xdcf 0xdd4 1 .leaf) 0xdd6 0xdd6
  1 (.node .leaf 0xdd8 0xddf 1 .leaf)) 0xdf2 0xdf3 1 (.node (.node (.node .leaf 0xe31 0xe31 1
  .leaf) 0xe33 0xe3a 1 .leaf) 0xe47 0xe4e 1 (.node .leaf 0xeb1 0xeb1 1 .leaf)))) 0xeb3 0xebc 1
  (.node (.node (.node (.node (.node .leaf 0xec8 0xece 1 .leaf) 0xf18 0xf19 1 .leaf) 0xf35 0xf35 1
  (.node .leaf 0xf37 0xf37 1 .leaf)) 0xf39 0xf39 1 (.node (.node (.node .leaf 0xf3e 0xf3f 1 .leaf)
  0xf71 0xf84 1 .leaf) 0xf86 0xf87 1 (.node .leaf 0xf8d 0xf97 1 .leaf))) 0xf99 0xfbc 1 (.node
  (.node (.node (.node .leaf 0xfc6 0xfc6 1 .leaf) 0x102d 0x1037 1 .leaf) 0x1039 0x103e 1 (.node
  .leaf 0x1056 0x1059 1 .leaf)) 0x105e 0x1060 1 (.node (.node (.node .leaf 0x1071 0x1074 1 .leaf)
  0x1082 0x1082 1 .leaf) 0x1084 0x1086 1 (.node .leaf 0x108d 0x108d 1 .leaf))))) 0x109d 0x109d 1
  (.node (.node (.node (.node (.node (.node .leaf 0x135d 0x135f 1 .leaf) 0x1712 0x1715 1 .leaf)
  0x1732 0x1734 1 (.node .leaf 0x1752 0x1753 1 .leaf)) 0x1772 0x1773 1 (.node (.node (.node .leaf
  0x17b4 0x17d3 1 .leaf) 0x17dd 0x17dd 1 .leaf) 0x180b 0x180d 1 (.node .leaf 0x180f 0x180f 1
  .leaf))) 0x1885 0x1886 1 (.node (.node (.node (.node .leaf 0x18a9 0x18a9 1 .leaf) 0x1920 0x192b
  1 .leaf) 0x1930 0x193b 1 (.node .leaf 0x1a17 0x1a1b 1 .leaf)) 0x1a55 0x1a5e 1 (.node (.node
  (.node .leaf 0x1a60 0x1a60 1 .leaf) 0x1a62 0x1a62 1 .leaf) 0x1a65 0x1a7c 1 (.node .leaf 0x1a7f
  0x1a7f 1 .leaf)))) 0x1ab0 0x1ace 1 (.node (.node (.node (.node (.node .leaf 0x1b00 0x1b04 1
  .leaf) 0x1b34 0x1b44 1 .leaf) 0x1b6b 0x1b73 1 (.node .leaf 0x1b80 0x1b82 1 .leaf)) 0x1ba1 0x1bad
  1 (.node (.node (.node .leaf 0x1be6 0x1bf3 1 .leaf) 0x1c24 0x1c37 1 .leaf) 0x1cd0 0x1cd2 1
  (.node .leaf 0x1cd4 0x1ce8 1 .leaf))) 0x1ced 0x1ced 1 (.node (.node (.node (.node .leaf 0x1cf4
  0x1cf4 1 .leaf) 0x1cf7 0x1cf9 1 .leaf) 0x1dc0 0x1dff 1 (.node .leaf 0x200c 0x200d 1 .leaf))
  0x20d0 0x20f0 1 (.node (.node (.node .leaf 0x2cef 0x2cf1 1 .leaf) 0x2d7f 0x2d7f 1 .leaf) 0x2de0
  0x2dff 1 (.node .leaf 0x302a 0x302f 1 .leaf))))))

def notStartTree_2 : RTree :=
  (.node (.node (.node (.node (.node (.node (.node .leaf 0xa66f 0xa672 1 .leaf) 0xa674 0xa67d 1
  .leaf) 0xa69e 0xa69f 1 (.node .leaf 0xa6f0 0xa6f1 1 .leaf)) 0xa802 0xa802 1 (.node (.node (.node
  .leaf 0xa806 0xa806 1 .leaf) 0xa80b 0xa80b 1 .leaf) 0xa823 0xa827 1 (.node .leaf 0xa82c 0xa82c 1
  .leaf))) 0xa880 0xa881 1 (.node (.node (.node (.node .leaf 0xa8b4 0xa8c5 1 .leaf) 0xa8e0 0xa8f1
  1 .leaf) 0xa8ff 0xa8ff 1 (.node .leaf 0xa926 0xa92d 1 .leaf)) 0xa947 0xa953 1 (.node (.node
  (.node .leaf 0xa980 0xa983 1 .leaf) 0xa9b3 0xa9c0 1 .leaf) 0xa9e5 0xa9e5 1 (.node .leaf 0xaa29
  0xaa36 1 .leaf)))) 0xaa43 0xaa43 1 (.node (.node (.node (.node (.node .leaf 0xaa4c 0xaa4d 1
  .leaf) 0xaa7c 0xaa7c 1 .leaf) 0xaab0 0xaab0 1 (.node .leaf 0xaab2 0xaab4 1 .leaf)) 0xaab7 0xaab8
  1 (.node (.node (.node .leaf 0xaabe 0xaabf 1 .leaf) 0xaac1 0xaac1 1 .leaf) 0xaaeb 0xaaef 1
  (.node .leaf 0xaaf5 0xaaf6 1 .leaf))) 0xabe3 0xabea 1 (.node (.node (.node (.node .leaf 0xabec
  0xabed 1 .leaf) 0xfb1e 0xfb1e 1 .leaf) 0xfe00 0xfe0f 1 (.node .leaf 0xfe20 0xfe2f 1 .leaf))
  0xff9e 0xff9f 1 (.node (.node (.node .leaf 0x101fd 0x101fd 1 .leaf) 0x102e0 0x102e0 1 .leaf)
  0x10376 0x1037a 1 (.node .leaf 0x10a01 0x10a03 1 .leaf))))) 0x10a05 0x10a06 1 (.node (.node
  (.node (.node (.node (.node .leaf 0x10a0c 0x10a0f 1 .leaf) 0x10a38 0x10a3a 1 .leaf) 0x10a3f
  0x10a3f 1 (.node .leaf 0x10ae5 0x10ae6 1 .leaf)) 0x10d24 0x10d27 1 (.node (.node (.node .leaf
  0x10eab 0x10eac 1 .leaf) 0x10efd 0x10eff 1 .leaf) 0x10f46 0x10f50 1 (.node .leaf 0x10f82 0x10f85
  1 .leaf))) 0x11000 0x11002 1 (.node (.node (.node (.node .leaf 0x11038 0x11046 1 .leaf) 0x11070
  0x11070 1 .leaf) 0x11073 0x11074 1 (.node .leaf 0x1107f 0x11082 1 .leaf)) 0x110b0 0x110ba 1
  (.node (.node (.node .leaf 0x110c2 0x110c2 1 .leaf) 0x11100 0x11102 1 .leaf) 0x11127 0x11134 1
  (.node .leaf 0x11145 0x11146 1 .leaf)))) 0x11173 0x11173 1 (.node (.node (.node (.node (.node
  .leaf 0x11180 0x11182 1 .leaf) 0x111b3 0x111c0 1 .leaf) 0x111c9 0x111cc 1 (.node .leaf 0x111ce
  0x111cf 1 .leaf)) 0x1122c 0x11237 1 (.node (.node (.node .leaf 0x1123e 0x1123e 1 .leaf) 0x11241
  0x11241 1 .leaf) 0x112df 0x112ea 1 (.node .leaf 0x11300 0x11303 1 .leaf))) 0x1133b 0x1133c 1
  (.node (.node (.node (.node .leaf 0x1133e 0x11344 1 .leaf) 0x11347 0x11348 1 .leaf) 0x1134b
  0x1134d 1 (.node .leaf 0x11357 0x11357 1 .leaf)) 0x11362 0x11363 1 (.node (.node (.node .leaf
  0x11366 0x1136c 1 .leaf) 0x11370 0x11374 1 .leaf) 0x11435 0x11446 1 (.node .leaf 0x1145e 0x1145e
  1 .leaf))))))

def notStartTree_3 : RTree :=
  (.node (.node (.node (.node (.node (.node (.node .leaf 0x115af 0x115b5 1 .leaf) 0x115b8 0x115c0
  1 .leaf) 0x115dc 0x115dd 1 (.node .leaf 0x11630 0x11640 1 .leaf)) 0x116ab 0x116b7 1 (.node
  (.node (.node .leaf 0x1171d 0x1171f 1 .leaf) 0x11722 0x1172b 1 .leaf) 0x1182c 0x1183a 1 (.node
  .leaf 0x11930 0x11935 1 .leaf))) 0x11937 0x11938 1 (.node (.node (.node (.node .leaf 0x1193b
  0x1193e 1 .leaf) 0x11940 0x11940 1 .leaf) 0x11942 0x11943 1 (.node .leaf 0x119d1 0x119d7 1
  .leaf)) 0x119da 0x119e0 1 (.node (.node (.node .leaf 0x119e4 0x119e4 1 .leaf) 0x11a01 0x11a0a 1
  .leaf) 0x11a33 0x11a39 1 (.node .leaf 0x11a3b 0x11a3e 1 .leaf)))) 0x11a47 0x11a47 1 (.node
  (.node (.node (.node (.node .leaf 0x11a51 0x11a5b 1 .leaf) 0x11a8a 0x11a99 1 .leaf) 0x11c2f
  0x11c36 1 (.node .leaf 0x11c38 0x11c3f 1 .leaf)) 0x11c92 0x11ca7 1 (.node (.node (.node .leaf
  0x11ca9 0x11cb6 1 .leaf) 0x11d31 0x11d36 1 .leaf) 0x11d3a 0x11d3a 1 (.node .leaf 0x11d3c 0x11d3d
  1 .leaf))) 0x11d3f 0x11d45 1 (.node (.node (.node (.node .leaf 0x11d47 0x11d47 1 .leaf) 0x11d8a
  0x11d8e 1 .leaf) 0x11d90 0x11d91 1 (.node .leaf 0x11d93 0x11d97 1 .leaf)) 0x11ef3 0x11ef6 1
  (.node (.node (.node .leaf 0x11f00 0x11f01 1 .leaf) 0x11f03 0x11f03 1 .leaf) 0x11f34 0x11f3a 1
  (.node .leaf 0x11f3e 0x11f42 1 .leaf))))) 0x13440 0x13440 1 (.node (.node (.node (.node (.node
  (.node .leaf 0x13447 0x13455 1 .leaf) 0x16af0 0x16af4 1 .leaf) 0x16b30 0x16b36 1 (.node .leaf
  0x16f4f 0x16f4f 1 .leaf)) 0x16f51 0x16f87 1 (.node (.node (.node .leaf 0x16f8f 0x16f92 1 .leaf)
  0x16fe4 0x16fe4 1 .leaf) 0x16ff0 0x16ff1 1 (.node .leaf 0x1bc9d 0x1bc9e 1 .leaf))) 0x1cf00
  0x1cf2d 1 (.node (.node (.node (.node .leaf 0x1cf30 0x1cf46 1 .leaf) 0x1d165 0x1d169 1 .leaf)
  0x1d16d 0x1d172 1 (.node .leaf 0x1d17b 0x1d182 1 .leaf)) 0x1d185 0x1d18b 1 (.node (.node (.node
  .leaf 0x1d1aa 0x1d1ad 1 .leaf) 0x1d242 0x1d244 1 .leaf) 0x1da00 0x1da36 1 (.node .leaf 0x1da3b
  0x1da6c 1 .leaf)))) 0x1da75 0x1da75 1 (.node (.node (.node (.node (.node .leaf 0x1da84 0x1da84 1
  .leaf) 0x1da9b 0x1da9f 1 .leaf) 0x1daa1 0x1daaf 1 (.node .leaf 0x1e000 0x1e006 1 .leaf)) 0x1e008
  0x1e018 1 (.node (.node (.node .leaf 0x1e01b 0x1e021 1 .leaf) 0x1e023 0x1e024 1 .leaf) 0x1e026
  0x1e02a 1 (.node .leaf 0x1e08f 0x1e08f 1 .leaf))) 0x1e130 0x1e136 1 (.node (.node (.node (.node
  .leaf 0x1e2ae 0x1e2ae 1 .leaf) 0x1e2ec 0x1e2ef 1 .leaf) 0x1e4ec 0x1e4ef 1 (.node .leaf 0x1e8d0
  0x1e8d6 1 .leaf)) 0x1e944 0x1e94a 1 (.node (.node .leaf 0x1f3fb 0x1f3ff 1 .leaf) 0xe0020 0xe007f
  1 (.node .leaf 0xe0100 0xe01ef 1 .leaf))))))

/-- The scalars `is_basic_text_start` rejects by its own tables. -/
def notStartTree : RTree :=
  (.node (.node notStartTree_0 0xcd5 0xcd6 1 notStartTree_1) 0x3099 0x309a 1 (.node notStartTree_2
  0x114b0 0x114c3 1 notStartTree_3))


/-- The scalars `check_basic_text_char` rejects. -/
def badTree : RTree :=
  (.node (.node (.node (.node (.node (.node (.node .leaf 0x0 0x8 1 .leaf) 0xb 0x1a 1 .leaf) 0x1c
  0x1f 1 (.node .leaf 0x7f 0x9f 1 .leaf)) 0x149 0x149 1 (.node (.node (.node .leaf 0x673 0x673 1
  .leaf) 0x9e4 0x9e5 1 .leaf) 0xa64 0xa65 1 (.node .leaf 0xae4 0xae5 1 .leaf))) 0xb64 0xb65 1
  (.node (.node (.node (.node .leaf 0xbe4 0xbe5 1 .leaf) 0xc64 0xc65 1 .leaf) 0xce4 0xce5 1 (.node
  .leaf 0xd64 0xd65 1 .leaf)) 0xf77 0xf77 1 (.node (.node (.node .leaf 0xf79 0xf79 1 .leaf) 0x17a3
  0x17a4 1 .leaf) 0x17b4 0x17b5 1 (.node .leaf 0x17d8 0x17d8 1 .leaf)))) 0x2028 0x202e 1 (.node
  (.node (.node (.node (.node .leaf 0x2066 0x206f 1 .leaf) 0x2072 0x2073 1 .leaf) 0x2126 0x2126 1
  (.node .leaf 0x212a 0x212b 1 .leaf)) 0x2329 0x232a 1 (.node (.node (.node .leaf 0x2df5 0x2df5 1
  .leaf) 0xf900 0xfa0d 1 .leaf) 0xfa10 0xfa10 1 (.node .leaf 0xfa12 0xfa12 1 .leaf))) 0xfa15
  0xfa1e 1 (.node (.node (.node (.node .leaf 0xfa20 0xfa20 1 .leaf) 0xfa22 0xfa22 1 .leaf) 0xfa25
  0xfa26 1 (.node .leaf 0xfa2a 0xfa6d 1 .leaf)) 0xfa70 0xfad9 1 (.node (.node .leaf 0xfb00 0xfb06
  1 .leaf) 0xfdd0 0xfdef 1 (.node .leaf 0xfeff 0xfeff 1 .leaf))))) 0xfff9 0xfffc 1 (.node (.node
  (.node (.node (.node (.node .leaf 0xfffe 0xffff 1 .leaf) 0x111c4 0x111c4 1 .leaf) 0x1d455
  0x1d455 1 (.node .leaf 0x1d49d 0x1d49d 1 .leaf)) 0x1d4a0 0x1d4a1 1 (.node (.node (.node .leaf
  0x1d4a3 0x1d4a4 1 .leaf) 0x1d4a7 0x1d4a8 1 .leaf) 0x1d4ad 0x1d4ad 1 (.node .leaf 0x1d4ba 0x1d4ba
  1 .leaf))) 0x1d4bc 0x1d4bc 1 (.node (.node (.node (.node .leaf 0x1d4c4 0x1d4c4 1 .leaf) 0x1d506
  0x1d506 1 .leaf) 0x1d50b 0x1d50c 1 (.node .leaf 0x1d515 0x1d515 1 .leaf)) 0x1d51d 0x1d51d 1
  (.node (.node (.node .leaf 0x1d53a 0x1d53a 1 .leaf) 0x1d53f 0x1d53f 1 .leaf) 0x1d545 0x1d545 1
  (.node .leaf 0x1d547 0x1d549 1 .leaf)))) 0x1d551 0x1d551 1 (.node (.node (.node (.node (.node
  .leaf 0x1fffe 0x1ffff 1 .leaf) 0x2f800 0x2fa1d 1 .leaf) 0x2fffe 0x2ffff 1 (.node .leaf 0x3fffe
  0x3ffff 1 .leaf)) 0x4fffe 0x4ffff 1 (.node (.node (.node .leaf 0x5fffe 0x5ffff 1 .leaf) 0x6fffe
  0x6ffff 1 .leaf) 0x7fffe 0x7ffff 1 (.node .leaf 0x8fffe 0x8ffff 1 .leaf))) 0x9fffe 0x9ffff 1
  (.node (.node (.node (.node .leaf 0xafffe 0xaffff 1 .leaf) 0xbfffe 0xbffff 1 .leaf) 0xcfffe
  0xcffff 1 (.node .leaf 0xdfffe 0xdffff 1 .leaf)) 0xe0001 0xe0001 1 (.node (.node .leaf 0xefffe
  0xeffff 1 .leaf) 0xffffe 0xfffff 1 (.node .leaf 0x10fffe 0x10ffff 1 .leaf))))))

end Verif.Tables
