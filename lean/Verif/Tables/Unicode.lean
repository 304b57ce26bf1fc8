import Verif.Table

/-!
# Unicode data (15.1)

The data of the `unicode-normalization` dependency, written by `tools/gen_tables.py` from the Unicode
15.0 tables of the local Perl plus the Unicode 15.1 additions; the CJK variants come from
`/repo/tests/basic-text-string.rs:771-4782`.
-/

namespace Verif.Tables

def cccTree_0 : RTree :=
  (.node (.node (.node (.node (.node (.node (.node .leaf 0x300 0x314 230 .leaf) 0x315 0x315 232
  (.node .leaf 0x316 0x319 220 .leaf)) 0x31a 0x31a 232 (.node (.node .leaf 0x31b 0x31b 216 .leaf)
  0x31c 0x320 220 .leaf)) 0x321 0x322 202 (.node (.node (.node .leaf 0x323 0x326 220 .leaf) 0x327
  0x328 202 .leaf) 0x329 0x333 220 (.node (.node .leaf 0x334 0x338 1 .leaf) 0x339 0x33c 220
  .leaf))) 0x33d 0x344 230 (.node (.node (.node (.node .leaf 0x345 0x345 240 .leaf) 0x346 0x346
  230 .leaf) 0x347 0x349 220 (.node (.node .leaf 0x34a 0x34c 230 .leaf) 0x34d 0x34e 220 .leaf))
  0x350 0x352 230 (.node (.node (.node .leaf 0x353 0x356 220 .leaf) 0x357 0x357 230 .leaf) 0x358
  0x358 232 (.node (.node .leaf 0x359 0x35a 220 .leaf) 0x35b 0x35b 230 .leaf)))) 0x35c 0x35c 233
  (.node (.node (.node (.node (.node .leaf 0x35d 0x35e 234 .leaf) 0x35f 0x35f 233 .leaf) 0x360
  0x361 234 (.node (.node .leaf 0x362 0x362 233 .leaf) 0x363 0x36f 230 .leaf)) 0x483 0x487 230
  (.node (.node (.node .leaf 0x591 0x591 220 .leaf) 0x592 0x595 230 .leaf) 0x596 0x596 220 (.node
  (.node .leaf 0x597 0x599 230 .leaf) 0x59a 0x59a 222 .leaf))) 0x59b 0x59b 220 (.node (.node
  (.node (.node .leaf 0x59c 0x5a1 230 .leaf) 0x5a2 0x5a7 220 .leaf) 0x5a8 0x5a9 230 (.node (.node
  .leaf 0x5aa 0x5aa 220 .leaf) 0x5ab 0x5ac 230 .leaf)) 0x5ad 0x5ad 222 (.node (.node (.node .leaf
  0x5ae 0x5ae 228 .leaf) 0x5af 0x5af 230 .leaf) 0x5b0 0x5b0 10 (.node (.node .leaf 0x5b1 0x5b1 11
  .leaf) 0x5b2 0x5b2 12 .leaf))))) 0x5b3 0x5b3 13 (.node (.node (.node (.node (.node (.node .leaf
  0x5b4 0x5b4 14 .leaf) 0x5b5 0x5b5 15 (.node .leaf 0x5b6 0x5b6 16 .leaf)) 0x5b7 0x5b7 17 (.node
  (.node .leaf 0x5b8 0x5b8 18 .leaf) 0x5b9 0x5ba 19 .leaf)) 0x5bb 0x5bb 20 (.node (.node (.node
  .leaf 0x5bc 0x5bc 21 .leaf) 0x5bd 0x5bd 22 .leaf) 0x5bf 0x5bf 23 (.node (.node .leaf 0x5c1 0x5c1
  24 .leaf) 0x5c2 0x5c2 25 .leaf))) 0x5c4 0x5c4 230 (.node (.node (.node (.node .leaf 0x5c5 0x5c5
  220 .leaf) 0x5c7 0x5c7 18 .leaf) 0x610 0x617 230 (.node (.node .leaf 0x618 0x618 30 .leaf) 0x619
  0x619 31 .leaf)) 0x61a 0x61a 32 (.node (.node (.node .leaf 0x64b 0x64b 27 .leaf) 0x64c 0x64c 28
  .leaf) 0x64d 0x64d 29 (.node (.node .leaf 0x64e 0x64e 30 .leaf) 0x64f 0x64f 31 .leaf)))) 0x650
  0x650 32 (.node (.node (.node (.node (.node .leaf 0x651 0x651 33 .leaf) 0x652 0x652 34 .leaf)
  0x653 0x654 230 (.node (.node .leaf 0x655 0x656 220 .leaf) 0x657 0x65b 230 .leaf)) 0x65c 0x65c
  220 (.node (.node (.node .leaf 0x65d 0x65e 230 .leaf) 0x65f 0x65f 220 .leaf) 0x670 0x670 35
  (.node (.node .leaf 0x6d6 0x6dc 230 .leaf) 0x6df 0x6e2 230 .leaf))) 0x6e3 0x6e3 220 (.node
  (.node (.node (.node .leaf 0x6e4 0x6e4 230 .leaf) 0x6e7 0x6e8 230 .leaf) 0x6ea 0x6ea 220 (.node
  (.node .leaf 0x6eb 0x6ec 230 .leaf) 0x6ed 0x6ed 220 .leaf)) 0x711 0x711 36 (.node (.node (.node
  .leaf 0x730 0x730 230 .leaf) 0x731 0x731 220 .leaf) 0x732 0x733 230 (.node (.node .leaf 0x734
  0x734 220 .leaf) 0x735 0x736 230 .leaf))))))

def cccTree_1 : RTree :=
  (.node (.node (.node (.node (.node (.node (.node .leaf 0x73a 0x73a 230 .leaf) 0x73b 0x73c 220
  (.node .leaf 0x73d 0x73d 230 .leaf)) 0x73e 0x73e 220 (.node (.node .leaf 0x73f 0x741 230 .leaf)
  0x742 0x742 220 .leaf)) 0x743 0x743 230 (.node (.node (.node .leaf 0x744 0x744 220 .leaf) 0x745
  0x745 230 .leaf) 0x746 0x746 220 (.node (.node .leaf 0x747 0x747 230 .leaf) 0x748 0x748 220
  .leaf))) 0x749 0x74a 230 (.node (.node (.node (.node .leaf 0x7eb 0x7f1 230 .leaf) 0x7f2 0x7f2
  220 .leaf) 0x7f3 0x7f3 230 (.node (.node .leaf 0x7fd 0x7fd 220 .leaf) 0x816 0x819 230 .leaf))
  0x81b 0x823 230 (.node (.node (.node .leaf 0x825 0x827 230 .leaf) 0x829 0x82d 230 .leaf) 0x859
  0x85b 220 (.node (.node .leaf 0x898 0x898 230 .leaf) 0x899 0x89b 220 .leaf)))) 0x89c 0x89f 230
  (.node (.node (.node (.node (.node .leaf 0x8ca 0x8ce 230 .leaf) 0x8cf 0x8d3 220 .leaf) 0x8d4
  0x8e1 230 (.node (.node .leaf 0x8e3 0x8e3 220 .leaf) 0x8e4 0x8e5 230 .leaf)) 0x8e6 0x8e6 220
  (.node (.node (.node .leaf 0x8e7 0x8e8 230 .leaf) 0x8e9 0x8e9 220 .leaf) 0x8ea 0x8ec 230 (.node
  (.node .leaf 0x8ed 0x8ef 220 .leaf) 0x8f0 0x8f0 27 .leaf))) 0x8f1 0x8f1 28 (.node (.node (.node
  (.node .leaf 0x8f2 0x8f2 29 .leaf) 0x8f3 0x8f5 230 .leaf) 0x8f6 0x8f6 220 (.node (.node .leaf
  0x8f7 0x8f8 230 .leaf) 0x8f9 0x8fa 220 .leaf)) 0x8fb 0x8ff 230 (.node (.node (.node .leaf 0x93c
  0x93c 7 .leaf) 0x94d 0x94d 9 .leaf) 0x951 0x951 230 (.node (.node .leaf 0x952 0x952 220 .leaf)
  0x953 0x954 230 .leaf))))) 0x9bc 0x9bc 7 (.node (.node (.node (.node (.node (.node .leaf 0x9cd
  0x9cd 9 .leaf) 0x9fe 0x9fe 230 .leaf) 0xa3c 0xa3c 7 (.node (.node .leaf 0xa4d 0xa4d 9 .leaf)
  0xabc 0xabc 7 .leaf)) 0xacd 0xacd 9 (.node (.node (.node .leaf 0xb3c 0xb3c 7 .leaf) 0xb4d 0xb4d
  9 .leaf) 0xbcd 0xbcd 9 (.node (.node .leaf 0xc3c 0xc3c 7 .leaf) 0xc4d 0xc4d 9 .leaf))) 0xc55
  0xc55 84 (.node (.node (.node (.node .leaf 0xc56 0xc56 91 .leaf) 0xcbc 0xcbc 7 .leaf) 0xccd
  0xccd 9 (.node (.node .leaf 0xd3b 0xd3c 9 .leaf) 0xd4d 0xd4d 9 .leaf)) 0xdca 0xdca 9 (.node
  (.node (.node .leaf 0xe38 0xe39 103 .leaf) 0xe3a 0xe3a 9 .leaf) 0xe48 0xe4b 107 (.node (.node
  .leaf 0xeb8 0xeb9 118 .leaf) 0xeba 0xeba 9 .leaf)))) 0xec8 0xecb 122 (.node (.node (.node (.node
  (.node .leaf 0xf18 0xf19 220 .leaf) 0xf35 0xf35 220 .leaf) 0xf37 0xf37 220 (.node (.node .leaf
  0xf39 0xf39 216 .leaf) 0xf71 0xf71 129 .leaf)) 0xf72 0xf72 130 (.node (.node (.node .leaf 0xf74
  0xf74 132 .leaf) 0xf7a 0xf7d 130 .leaf) 0xf80 0xf80 130 (.node (.node .leaf 0xf82 0xf83 230
  .leaf) 0xf84 0xf84 9 .leaf))) 0xf86 0xf87 230 (.node (.node (.node (.node .leaf 0xfc6 0xfc6 220
  .leaf) 0x1037 0x1037 7 .leaf) 0x1039 0x103a 9 (.node (.node .leaf 0x108d 0x108d 220 .leaf)
  0x135d 0x135f 230 .leaf)) 0x1714 0x1715 9 (.node (.node (.node .leaf 0x1734 0x1734 9 .leaf)
  0x17d2 0x17d2 9 .leaf) 0x17dd 0x17dd 230 (.node (.node .leaf 0x18a9 0x18a9 228 .leaf) 0x1939
  0x1939 222 .leaf))))))

def cccTree_2 : RTree :=
  (.node (.node (.node (.node (.node (.node (.node .leaf 0x193b 0x193b 220 .leaf) 0x1a17 0x1a17
  230 (.node .leaf 0x1a18 0x1a18 220 .leaf)) 0x1a60 0x1a60 9 (.node (.node .leaf 0x1a75 0x1a7c 230
  .leaf) 0x1a7f 0x1a7f 220 .leaf)) 0x1ab0 0x1ab4 230 (.node (.node (.node .leaf 0x1ab5 0x1aba 220
  .leaf) 0x1abb 0x1abc 230 .leaf) 0x1abd 0x1abd 220 (.node (.node .leaf 0x1abf 0x1ac0 220 .leaf)
  0x1ac1 0x1ac2 230 .leaf))) 0x1ac3 0x1ac4 220 (.node (.node (.node (.node .leaf 0x1ac5 0x1ac9 230
  .leaf) 0x1aca 0x1aca 220 .leaf) 0x1acb 0x1ace 230 (.node (.node .leaf 0x1b34 0x1b34 7 .leaf)
  0x1b44 0x1b44 9 .leaf)) 0x1b6b 0x1b6b 230 (.node (.node (.node .leaf 0x1b6c 0x1b6c 220 .leaf)
  0x1b6d 0x1b73 230 .leaf) 0x1baa 0x1bab 9 (.node (.node .leaf 0x1be6 0x1be6 7 .leaf) 0x1bf2
  0x1bf3 9 .leaf)))) 0x1c37 0x1c37 7 (.node (.node (.node (.node (.node .leaf 0x1cd0 0x1cd2 230
  .leaf) 0x1cd4 0x1cd4 1 .leaf) 0x1cd5 0x1cd9 220 (.node (.node .leaf 0x1cda 0x1cdb 230 .leaf)
  0x1cdc 0x1cdf 220 .leaf)) 0x1ce0 0x1ce0 230 (.node (.node (.node .leaf 0x1ce2 0x1ce8 1 .leaf)
  0x1ced 0x1ced 220 .leaf) 0x1cf4 0x1cf4 230 (.node (.node .leaf 0x1cf8 0x1cf9 230 .leaf) 0x1dc0
  0x1dc1 230 .leaf))) 0x1dc2 0x1dc2 220 (.node (.node (.node (.node .leaf 0x1dc3 0x1dc9 230 .leaf)
  0x1dca 0x1dca 220 .leaf) 0x1dcb 0x1dcc 230 (.node (.node .leaf 0x1dcd 0x1dcd 234 .leaf) 0x1dce
  0x1dce 214 .leaf)) 0x1dcf 0x1dcf 220 (.node (.node (.node .leaf 0x1dd0 0x1dd0 202 .leaf) 0x1dd1
  0x1df5 230 .leaf) 0x1df6 0x1df6 232 (.node (.node .leaf 0x1df7 0x1df8 228 .leaf) 0x1df9 0x1df9
  220 .leaf))))) 0x1dfa 0x1dfa 218 (.node (.node (.node (.node (.node (.node .leaf 0x1dfb 0x1dfb
  230 .leaf) 0x1dfc 0x1dfc 233 .leaf) 0x1dfd 0x1dfd 220 (.node (.node .leaf 0x1dfe 0x1dfe 230
  .leaf) 0x1dff 0x1dff 220 .leaf)) 0x20d0 0x20d1 230 (.node (.node (.node .leaf 0x20d2 0x20d3 1
  .leaf) 0x20d4 0x20d7 230 .leaf) 0x20d8 0x20da 1 (.node (.node .leaf 0x20db 0x20dc 230 .leaf)
  0x20e1 0x20e1 230 .leaf))) 0x20e5 0x20e6 1 (.node (.node (.node (.node .leaf 0x20e7 0x20e7 230
  .leaf) 0x20e8 0x20e8 220 .leaf) 0x20e9 0x20e9 230 (.node (.node .leaf 0x20ea 0x20eb 1 .leaf)
  0x20ec 0x20ef 220 .leaf)) 0x20f0 0x20f0 230 (.node (.node (.node .leaf 0x2cef 0x2cf1 230 .leaf)
  0x2d7f 0x2d7f 9 .leaf) 0x2de0 0x2dff 230 (.node (.node .leaf 0x302a 0x302a 218 .leaf) 0x302b
  0x302b 228 .leaf)))) 0x302c 0x302c 232 (.node (.node (.node (.node (.node .leaf 0x302d 0x302d
  222 .leaf) 0x302e 0x302f 224 .leaf) 0x3099 0x309a 8 (.node (.node .leaf 0xa66f 0xa66f 230 .leaf)
  0xa674 0xa67d 230 .leaf)) 0xa69e 0xa69f 230 (.node (.node (.node .leaf 0xa6f0 0xa6f1 230 .leaf)
  0xa806 0xa806 9 .leaf) 0xa82c 0xa82c 9 (.node (.node .leaf 0xa8c4 0xa8c4 9 .leaf) 0xa8e0 0xa8f1
  230 .leaf))) 0xa92b 0xa92d 220 (.node (.node (.node (.node .leaf 0xa953 0xa953 9 .leaf) 0xa9b3
  0xa9b3 7 .leaf) 0xa9c0 0xa9c0 9 (.node (.node .leaf 0xaab0 0xaab0 230 .leaf) 0xaab2 0xaab3 230
  .leaf)) 0xaab4 0xaab4 220 (.node (.node (.node .leaf 0xaab7 0xaab8 230 .leaf) 0xaabe 0xaabf 230
  .leaf) 0xaac1 0xaac1 230 (.node (.node .leaf 0xaaf6 0xaaf6 9 .leaf) 0xabed 0xabed 9 .leaf))))))

def cccTree_3 : RTree :=
  (.node (.node (.node (.node (.node (.node (.node .leaf 0xfe20 0xfe26 230 .leaf) 0xfe27 0xfe2d
  220 (.node .leaf 0xfe2e 0xfe2f 230 .leaf)) 0x101fd 0x101fd 220 (.node (.node .leaf 0x102e0
  0x102e0 220 .leaf) 0x10376 0x1037a 230 .leaf)) 0x10a0d 0x10a0d 220 (.node (.node (.node .leaf
  0x10a0f 0x10a0f 230 .leaf) 0x10a38 0x10a38 230 .leaf) 0x10a39 0x10a39 1 (.node (.node .leaf
  0x10a3a 0x10a3a 220 .leaf) 0x10a3f 0x10a3f 9 .leaf))) 0x10ae5 0x10ae5 230 (.node (.node (.node
  (.node .leaf 0x10ae6 0x10ae6 220 .leaf) 0x10d24 0x10d27 230 .leaf) 0x10eab 0x10eac 230 (.node
  (.node .leaf 0x10efd 0x10eff 220 .leaf) 0x10f46 0x10f47 220 .leaf)) 0x10f48 0x10f4a 230 (.node
  (.node (.node .leaf 0x10f4b 0x10f4b 220 .leaf) 0x10f4c 0x10f4c 230 .leaf) 0x10f4d 0x10f50 220
  (.node (.node .leaf 0x10f82 0x10f82 230 .leaf) 0x10f83 0x10f83 220 .leaf)))) 0x10f84 0x10f84 230
  (.node (.node (.node (.node (.node .leaf 0x10f85 0x10f85 220 .leaf) 0x11046 0x11046 9 .leaf)
  0x11070 0x11070 9 (.node (.node .leaf 0x1107f 0x1107f 9 .leaf) 0x110b9 0x110b9 9 .leaf)) 0x110ba
  0x110ba 7 (.node (.node (.node .leaf 0x11100 0x11102 230 .leaf) 0x11133 0x11134 9 .leaf) 0x11173
  0x11173 7 (.node (.node .leaf 0x111c0 0x111c0 9 .leaf) 0x111ca 0x111ca 7 .leaf))) 0x11235
  0x11235 9 (.node (.node (.node (.node .leaf 0x11236 0x11236 7 .leaf) 0x112e9 0x112e9 7 .leaf)
  0x112ea 0x112ea 9 (.node (.node .leaf 0x1133b 0x1133c 7 .leaf) 0x1134d 0x1134d 9 .leaf)) 0x11366
  0x1136c 230 (.node (.node (.node .leaf 0x11370 0x11374 230 .leaf) 0x11442 0x11442 9 .leaf)
  0x11446 0x11446 7 (.node (.node .leaf 0x1145e 0x1145e 230 .leaf) 0x114c2 0x114c2 9 .leaf)))))
  0x114c3 0x114c3 7 (.node (.node (.node (.node (.node (.node .leaf 0x115bf 0x115bf 9 .leaf)
  0x115c0 0x115c0 7 .leaf) 0x1163f 0x1163f 9 (.node (.node .leaf 0x116b6 0x116b6 9 .leaf) 0x116b7
  0x116b7 7 .leaf)) 0x1172b 0x1172b 9 (.node (.node (.node .leaf 0x11839 0x11839 9 .leaf) 0x1183a
  0x1183a 7 .leaf) 0x1193d 0x1193e 9 (.node (.node .leaf 0x11943 0x11943 7 .leaf) 0x119e0 0x119e0
  9 .leaf))) 0x11a34 0x11a34 9 (.node (.node (.node (.node .leaf 0x11a47 0x11a47 9 .leaf) 0x11a99
  0x11a99 9 .leaf) 0x11c3f 0x11c3f 9 (.node (.node .leaf 0x11d42 0x11d42 7 .leaf) 0x11d44 0x11d45
  9 .leaf)) 0x11d97 0x11d97 9 (.node (.node (.node .leaf 0x11f41 0x11f42 9 .leaf) 0x16af0 0x16af4
  1 .leaf) 0x16b30 0x16b36 230 (.node (.node .leaf 0x16ff0 0x16ff1 6 .leaf) 0x1bc9e 0x1bc9e 1
  .leaf)))) 0x1d165 0x1d166 216 (.node (.node (.node (.node (.node .leaf 0x1d167 0x1d169 1 .leaf)
  0x1d16d 0x1d16d 226 .leaf) 0x1d16e 0x1d172 216 (.node (.node .leaf 0x1d17b 0x1d182 220 .leaf)
  0x1d185 0x1d189 230 .leaf)) 0x1d18a 0x1d18b 220 (.node (.node (.node .leaf 0x1d1aa 0x1d1ad 230
  .leaf) 0x1d242 0x1d244 230 .leaf) 0x1e000 0x1e006 230 (.node (.node .leaf 0x1e008 0x1e018 230
  .leaf) 0x1e01b 0x1e021 230 .leaf))) 0x1e023 0x1e024 230 (.node (.node (.node (.node .leaf
  0x1e026 0x1e02a 230 .leaf) 0x1e08f 0x1e08f 230 .leaf) 0x1e130 0x1e136 230 (.node (.node .leaf
  0x1e2ae 0x1e2ae 230 .leaf) 0x1e2ec 0x1e2ef 230 .leaf)) 0x1e4ec 0x1e4ed 232 (.node (.node (.node
  .leaf 0x1e4ee 0x1e4ee 220 .leaf) 0x1e4ef 0x1e4ef 230 .leaf) 0x1e8d0 0x1e8d6 220 (.node (.node
  .leaf 0x1e944 0x1e949 230 .leaf) 0x1e94a 0x1e94a 7 .leaf))))))

/-- Canonical_Combining_Class, nonzero ranges. -/
def cccTree : RTree :=
  (.node (.node cccTree_0 0x737 0x739 220 cccTree_1) 0x193a 0x193a 230 (.node cccTree_2 0xfb1e
  0xfb1e 26 cccTree_3))

def decompTree_0 : Tree (List Nat) :=
  (.node (.node (.node (.node (.node (.node (.node (.node .leaf 0xc0 [0x41, 0x300] .leaf) 0xc1
  [0x41, 0x301] .leaf) 0xc2 [0x41, 0x302] (.node .leaf 0xc3 [0x41, 0x303] .leaf)) 0xc4 [0x41,
  0x308] (.node (.node .leaf 0xc5 [0x41, 0x30a] .leaf) 0xc7 [0x43, 0x327] (.node .leaf 0xc8 [0x45,
  0x300] .leaf))) 0xc9 [0x45, 0x301] (.node (.node (.node .leaf 0xca [0x45, 0x302] .leaf) 0xcb
  [0x45, 0x308] (.node .leaf 0xcc [0x49, 0x300] .leaf)) 0xcd [0x49, 0x301] (.node (.node .leaf
  0xce [0x49, 0x302] .leaf) 0xcf [0x49, 0x308] (.node .leaf 0xd1 [0x4e, 0x303] .leaf)))) 0xd2
  [0x4f, 0x300] (.node (.node (.node (.node .leaf 0xd3 [0x4f, 0x301] .leaf) 0xd4 [0x4f, 0x302]
  (.node .leaf 0xd5 [0x4f, 0x303] .leaf)) 0xd6 [0x4f, 0x308] (.node (.node .leaf 0xd9 [0x55,
  0x300] .leaf) 0xda [0x55, 0x301] (.node .leaf 0xdb [0x55, 0x302] .leaf))) 0xdc [0x55, 0x308]
  (.node (.node (.node .leaf 0xdd [0x59, 0x301] .leaf) 0xe0 [0x61, 0x300] (.node .leaf 0xe1 [0x61,
  0x301] .leaf)) 0xe2 [0x61, 0x302] (.node (.node .leaf 0xe3 [0x61, 0x303] .leaf) 0xe4 [0x61,
  0x308] (.node .leaf 0xe5 [0x61, 0x30a] .leaf))))) 0xe7 [0x63, 0x327] (.node (.node (.node (.node
  (.node .leaf 0xe8 [0x65, 0x300] .leaf) 0xe9 [0x65, 0x301] (.node .leaf 0xea [0x65, 0x302]
  .leaf)) 0xeb [0x65, 0x308] (.node (.node .leaf 0xec [0x69, 0x300] .leaf) 0xed [0x69, 0x301]
  (.node .leaf 0xee [0x69, 0x302] .leaf))) 0xef [0x69, 0x308] (.node (.node (.node .leaf 0xf1
  [0x6e, 0x303] .leaf) 0xf2 [0x6f, 0x300] (.node .leaf 0xf3 [0x6f, 0x301] .leaf)) 0xf4 [0x6f,
  0x302] (.node (.node .leaf 0xf5 [0x6f, 0x303] .leaf) 0xf6 [0x6f, 0x308] (.node .leaf 0xf9 [0x75,
  0x300] .leaf)))) 0xfa [0x75, 0x301] (.node (.node (.node (.node .leaf 0xfb [0x75, 0x302] .leaf)
  0xfc [0x75, 0x308] (.node .leaf 0xfd [0x79, 0x301] .leaf)) 0xff [0x79, 0x308] (.node (.node
  .leaf 0x100 [0x41, 0x304] .leaf) 0x101 [0x61, 0x304] (.node .leaf 0x102 [0x41, 0x306] .leaf)))
  0x103 [0x61, 0x306] (.node (.node (.node .leaf 0x104 [0x41, 0x328] .leaf) 0x105 [0x61, 0x328]
  (.node .leaf 0x106 [0x43, 0x301] .leaf)) 0x107 [0x63, 0x301] (.node (.node .leaf 0x108 [0x43,
  0x302] .leaf) 0x109 [0x63, 0x302] (.node .leaf 0x10a [0x43, 0x307] .leaf)))))) 0x10b [0x63,
  0x307] (.node (.node (.node (.node (.node (.node .leaf 0x10c [0x43, 0x30c] .leaf) 0x10d [0x63,
  0x30c] (.node .leaf 0x10e [0x44, 0x30c] .leaf)) 0x10f [0x64, 0x30c] (.node (.node .leaf 0x112
  [0x45, 0x304] .leaf) 0x113 [0x65, 0x304] (.node .leaf 0x114 [0x45, 0x306] .leaf))) 0x115 [0x65,
  0x306] (.node (.node (.node .leaf 0x116 [0x45, 0x307] .leaf) 0x117 [0x65, 0x307] (.node .leaf
  0x118 [0x45, 0x328] .leaf)) 0x119 [0x65, 0x328] (.node (.node .leaf 0x11a [0x45, 0x30c] .leaf)
  0x11b [0x65, 0x30c] (.node .leaf 0x11c [0x47, 0x302] .leaf)))) 0x11d [0x67, 0x302] (.node (.node
  (.node (.node .leaf 0x11e [0x47, 0x306] .leaf) 0x11f [0x67, 0x306] (.node .leaf 0x120 [0x47,
  0x307] .leaf)) 0x121 [0x67, 0x307] (.node (.node .leaf 0x122 [0x47, 0x327] .leaf) 0x123 [0x67,
  0x327] (.node .leaf 0x124 [0x48, 0x302] .leaf))) 0x125 [0x68, 0x302] (.node (.node (.node .leaf
  0x128 [0x49, 0x303] .leaf) 0x129 [0x69, 0x303] (.node .leaf 0x12a [0x49, 0x304] .leaf)) 0x12b
  [0x69, 0x304] (.node (.node .leaf 0x12c [0x49, 0x306] .leaf) 0x12d [0x69, 0x306] (.node .leaf
  0x12e [0x49, 0x328] .leaf))))) 0x12f [0x69, 0x328] (.node (.node (.node (.node (.node .leaf
  0x130 [0x49, 0x307] .leaf) 0x134 [0x4a, 0x302] (.node .leaf 0x135 [0x6a, 0x302] .leaf)) 0x136
  [0x4b, 0x327] (.node (.node .leaf 0x137 [0x6b, 0x327] .leaf) 0x139 [0x4c, 0x301] (.node .leaf
  0x13a [0x6c, 0x301] .leaf))) 0x13b [0x4c, 0x327] (.node (.node (.node .leaf 0x13c [0x6c, 0x327]
  .leaf) 0x13d [0x4c, 0x30c] (.node .leaf 0x13e [0x6c, 0x30c] .leaf)) 0x143 [0x4e, 0x301] (.node
  (.node .leaf 0x144 [0x6e, 0x301] .leaf) 0x145 [0x4e, 0x327] (.node .leaf 0x146 [0x6e, 0x327]
  .leaf)))) 0x147 [0x4e, 0x30c] (.node (.node (.node (.node .leaf 0x148 [0x6e, 0x30c] .leaf) 0x14c
  [0x4f, 0x304] (.node .leaf 0x14d [0x6f, 0x304] .leaf)) 0x14e [0x4f, 0x306] (.node (.node .leaf
  0x14f [0x6f, 0x306] .leaf) 0x150 [0x4f, 0x30b] (.node .leaf 0x151 [0x6f, 0x30b] .leaf))) 0x154
  [0x52, 0x301] (.node (.node (.node .leaf 0x155 [0x72, 0x301] .leaf) 0x156 [0x52, 0x327] (.node
  .leaf 0x157 [0x72, 0x327] .leaf)) 0x158 [0x52, 0x30c] (.node (.node .leaf 0x159 [0x72, 0x30c]
  .leaf) 0x15a [0x53, 0x301] (.node .leaf 0x15b [0x73, 0x301] .leaf)))))))

def decompTree_1 : Tree (List Nat) :=
  (.node (.node (.node (.node (.node (.node (.node (.node .leaf 0x15d [0x73, 0x302] .leaf) 0x15e
  [0x53, 0x327] .leaf) 0x15f [0x73, 0x327] (.node .leaf 0x160 [0x53, 0x30c] .leaf)) 0x161 [0x73,
  0x30c] (.node (.node .leaf 0x162 [0x54, 0x327] .leaf) 0x163 [0x74, 0x327] (.node .leaf 0x164
  [0x54, 0x30c] .leaf))) 0x165 [0x74, 0x30c] (.node (.node (.node .leaf 0x168 [0x55, 0x303] .leaf)
  0x169 [0x75, 0x303] (.node .leaf 0x16a [0x55, 0x304] .leaf)) 0x16b [0x75, 0x304] (.node (.node
  .leaf 0x16c [0x55, 0x306] .leaf) 0x16d [0x75, 0x306] (.node .leaf 0x16e [0x55, 0x30a] .leaf))))
  0x16f [0x75, 0x30a] (.node (.node (.node (.node .leaf 0x170 [0x55, 0x30b] .leaf) 0x171 [0x75,
  0x30b] (.node .leaf 0x172 [0x55, 0x328] .leaf)) 0x173 [0x75, 0x328] (.node (.node .leaf 0x174
  [0x57, 0x302] .leaf) 0x175 [0x77, 0x302] (.node .leaf 0x176 [0x59, 0x302] .leaf))) 0x177 [0x79,
  0x302] (.node (.node (.node .leaf 0x178 [0x59, 0x308] .leaf) 0x179 [0x5a, 0x301] (.node .leaf
  0x17a [0x7a, 0x301] .leaf)) 0x17b [0x5a, 0x307] (.node (.node .leaf 0x17c [0x7a, 0x307] .leaf)
  0x17d [0x5a, 0x30c] (.node .leaf 0x17e [0x7a, 0x30c] .leaf))))) 0x1a0 [0x4f, 0x31b] (.node
  (.node (.node (.node (.node .leaf 0x1a1 [0x6f, 0x31b] .leaf) 0x1af [0x55, 0x31b] (.node .leaf
  0x1b0 [0x75, 0x31b] .leaf)) 0x1cd [0x41, 0x30c] (.node (.node .leaf 0x1ce [0x61, 0x30c] .leaf)
  0x1cf [0x49, 0x30c] (.node .leaf 0x1d0 [0x69, 0x30c] .leaf))) 0x1d1 [0x4f, 0x30c] (.node (.node
  (.node .leaf 0x1d2 [0x6f, 0x30c] .leaf) 0x1d3 [0x55, 0x30c] (.node .leaf 0x1d4 [0x75, 0x30c]
  .leaf)) 0x1d5 [0x55, 0x308, 0x304] (.node (.node .leaf 0x1d6 [0x75, 0x308, 0x304] .leaf) 0x1d7
  [0x55, 0x308, 0x301] (.node .leaf 0x1d8 [0x75, 0x308, 0x301] .leaf)))) 0x1d9 [0x55, 0x308,
  0x30c] (.node (.node (.node (.node .leaf 0x1da [0x75, 0x308, 0x30c] .leaf) 0x1db [0x55, 0x308,
  0x300] (.node .leaf 0x1dc [0x75, 0x308, 0x300] .leaf)) 0x1de [0x41, 0x308, 0x304] (.node (.node
  .leaf 0x1df [0x61, 0x308, 0x304] .leaf) 0x1e0 [0x41, 0x307, 0x304] (.node .leaf 0x1e1 [0x61,
  0x307, 0x304] .leaf))) 0x1e2 [0xc6, 0x304] (.node (.node (.node .leaf 0x1e3 [0xe6, 0x304] .leaf)
  0x1e6 [0x47, 0x30c] (.node .leaf 0x1e7 [0x67, 0x30c] .leaf)) 0x1e8 [0x4b, 0x30c] (.node (.node
  .leaf 0x1e9 [0x6b, 0x30c] .leaf) 0x1ea [0x4f, 0x328] (.node .leaf 0x1eb [0x6f, 0x328]
  .leaf)))))) 0x1ec [0x4f, 0x328, 0x304] (.node (.node (.node (.node (.node (.node .leaf 0x1ed
  [0x6f, 0x328, 0x304] .leaf) 0x1ee [0x1b7, 0x30c] (.node .leaf 0x1ef [0x292, 0x30c] .leaf)) 0x1f0
  [0x6a, 0x30c] (.node (.node .leaf 0x1f4 [0x47, 0x301] .leaf) 0x1f5 [0x67, 0x301] (.node .leaf
  0x1f8 [0x4e, 0x300] .leaf))) 0x1f9 [0x6e, 0x300] (.node (.node (.node .leaf 0x1fa [0x41, 0x30a,
  0x301] .leaf) 0x1fb [0x61, 0x30a, 0x301] (.node .leaf 0x1fc [0xc6, 0x301] .leaf)) 0x1fd [0xe6,
  0x301] (.node (.node .leaf 0x1fe [0xd8, 0x301] .leaf) 0x1ff [0xf8, 0x301] (.node .leaf 0x200
  [0x41, 0x30f] .leaf)))) 0x201 [0x61, 0x30f] (.node (.node (.node (.node .leaf 0x202 [0x41,
  0x311] .leaf) 0x203 [0x61, 0x311] (.node .leaf 0x204 [0x45, 0x30f] .leaf)) 0x205 [0x65, 0x30f]
  (.node (.node .leaf 0x206 [0x45, 0x311] .leaf) 0x207 [0x65, 0x311] (.node .leaf 0x208 [0x49,
  0x30f] .leaf))) 0x209 [0x69, 0x30f] (.node (.node (.node .leaf 0x20a [0x49, 0x311] .leaf) 0x20b
  [0x69, 0x311] (.node .leaf 0x20c [0x4f, 0x30f] .leaf)) 0x20d [0x6f, 0x30f] (.node (.node .leaf
  0x20e [0x4f, 0x311] .leaf) 0x20f [0x6f, 0x311] (.node .leaf 0x210 [0x52, 0x30f] .leaf))))) 0x211
  [0x72, 0x30f] (.node (.node (.node (.node (.node .leaf 0x212 [0x52, 0x311] .leaf) 0x213 [0x72,
  0x311] (.node .leaf 0x214 [0x55, 0x30f] .leaf)) 0x215 [0x75, 0x30f] (.node (.node .leaf 0x216
  [0x55, 0x311] .leaf) 0x217 [0x75, 0x311] (.node .leaf 0x218 [0x53, 0x326] .leaf))) 0x219 [0x73,
  0x326] (.node (.node (.node .leaf 0x21a [0x54, 0x326] .leaf) 0x21b [0x74, 0x326] (.node .leaf
  0x21e [0x48, 0x30c] .leaf)) 0x21f [0x68, 0x30c] (.node (.node .leaf 0x226 [0x41, 0x307] .leaf)
  0x227 [0x61, 0x307] (.node .leaf 0x228 [0x45, 0x327] .leaf)))) 0x229 [0x65, 0x327] (.node (.node
  (.node (.node .leaf 0x22a [0x4f, 0x308, 0x304] .leaf) 0x22b [0x6f, 0x308, 0x304] (.node .leaf
  0x22c [0x4f, 0x303, 0x304] .leaf)) 0x22d [0x6f, 0x303, 0x304] (.node (.node .leaf 0x22e [0x4f,
  0x307] .leaf) 0x22f [0x6f, 0x307] (.node .leaf 0x230 [0x4f, 0x307, 0x304] .leaf))) 0x231 [0x6f,
  0x307, 0x304] (.node (.node (.node .leaf 0x232 [0x59, 0x304] .leaf) 0x233 [0x79, 0x304] (.node
  .leaf 0x340 [0x300] .leaf)) 0x341 [0x301] (.node (.node .leaf 0x343 [0x313] .leaf) 0x344 [0x308,
  0x301] (.node .leaf 0x374 [0x2b9] .leaf)))))))

def decompTree_2 : Tree (List Nat) :=
  (.node (.node (.node (.node (.node (.node (.node (.node .leaf 0x385 [0xa8, 0x301] .leaf) 0x386
  [0x391, 0x301] .leaf) 0x387 [0xb7] (.node .leaf 0x388 [0x395, 0x301] .leaf)) 0x389 [0x397,
  0x301] (.node (.node .leaf 0x38a [0x399, 0x301] .leaf) 0x38c [0x39f, 0x301] (.node .leaf 0x38e
  [0x3a5, 0x301] .leaf))) 0x38f [0x3a9, 0x301] (.node (.node (.node .leaf 0x390 [0x3b9, 0x308,
  0x301] .leaf) 0x3aa [0x399, 0x308] (.node .leaf 0x3ab [0x3a5, 0x308] .leaf)) 0x3ac [0x3b1,
  0x301] (.node (.node .leaf 0x3ad [0x3b5, 0x301] .leaf) 0x3ae [0x3b7, 0x301] (.node .leaf 0x3af
  [0x3b9, 0x301] .leaf)))) 0x3b0 [0x3c5, 0x308, 0x301] (.node (.node (.node (.node .leaf 0x3ca
  [0x3b9, 0x308] .leaf) 0x3cb [0x3c5, 0x308] (.node .leaf 0x3cc [0x3bf, 0x301] .leaf)) 0x3cd
  [0x3c5, 0x301] (.node (.node .leaf 0x3ce [0x3c9, 0x301] .leaf) 0x3d3 [0x3d2, 0x301] (.node .leaf
  0x3d4 [0x3d2, 0x308] .leaf))) 0x400 [0x415, 0x300] (.node (.node (.node .leaf 0x401 [0x415,
  0x308] .leaf) 0x403 [0x413, 0x301] (.node .leaf 0x407 [0x406, 0x308] .leaf)) 0x40c [0x41a,
  0x301] (.node (.node .leaf 0x40d [0x418, 0x300] .leaf) 0x40e [0x423, 0x306] (.node .leaf 0x419
  [0x418, 0x306] .leaf))))) 0x439 [0x438, 0x306] (.node (.node (.node (.node (.node .leaf 0x450
  [0x435, 0x300] .leaf) 0x451 [0x435, 0x308] (.node .leaf 0x453 [0x433, 0x301] .leaf)) 0x457
  [0x456, 0x308] (.node (.node .leaf 0x45c [0x43a, 0x301] .leaf) 0x45d [0x438, 0x300] (.node .leaf
  0x45e [0x443, 0x306] .leaf))) 0x476 [0x474, 0x30f] (.node (.node (.node .leaf 0x477 [0x475,
  0x30f] .leaf) 0x4c1 [0x416, 0x306] (.node .leaf 0x4c2 [0x436, 0x306] .leaf)) 0x4d0 [0x410,
  0x306] (.node (.node .leaf 0x4d1 [0x430, 0x306] .leaf) 0x4d2 [0x410, 0x308] (.node .leaf 0x4d3
  [0x430, 0x308] .leaf)))) 0x4d6 [0x415, 0x306] (.node (.node (.node (.node .leaf 0x4d7 [0x435,
  0x306] .leaf) 0x4da [0x4d8, 0x308] (.node .leaf 0x4db [0x4d9, 0x308] .leaf)) 0x4dc [0x416,
  0x308] (.node (.node .leaf 0x4dd [0x436, 0x308] .leaf) 0x4de [0x417, 0x308] (.node .leaf 0x4df
  [0x437, 0x308] .leaf))) 0x4e2 [0x418, 0x304] (.node (.node (.node .leaf 0x4e3 [0x438, 0x304]
  .leaf) 0x4e4 [0x418, 0x308] (.node .leaf 0x4e5 [0x438, 0x308] .leaf)) 0x4e6 [0x41e, 0x308]
  (.node (.node .leaf 0x4e7 [0x43e, 0x308] .leaf) 0x4ea [0x4e8, 0x308] (.node .leaf 0x4eb [0x4e9,
  0x308] .leaf)))))) 0x4ec [0x42d, 0x308] (.node (.node (.node (.node (.node (.node .leaf 0x4ed
  [0x44d, 0x308] .leaf) 0x4ee [0x423, 0x304] (.node .leaf 0x4ef [0x443, 0x304] .leaf)) 0x4f0
  [0x423, 0x308] (.node (.node .leaf 0x4f1 [0x443, 0x308] .leaf) 0x4f2 [0x423, 0x30b] (.node .leaf
  0x4f3 [0x443, 0x30b] .leaf))) 0x4f4 [0x427, 0x308] (.node (.node (.node .leaf 0x4f5 [0x447,
  0x308] .leaf) 0x4f8 [0x42b, 0x308] (.node .leaf 0x4f9 [0x44b, 0x308] .leaf)) 0x622 [0x627,
  0x653] (.node (.node .leaf 0x623 [0x627, 0x654] .leaf) 0x624 [0x648, 0x654] (.node .leaf 0x625
  [0x627, 0x655] .leaf)))) 0x626 [0x64a, 0x654] (.node (.node (.node (.node .leaf 0x6c0 [0x6d5,
  0x654] .leaf) 0x6c2 [0x6c1, 0x654] (.node .leaf 0x6d3 [0x6d2, 0x654] .leaf)) 0x929 [0x928,
  0x93c] (.node (.node .leaf 0x931 [0x930, 0x93c] .leaf) 0x934 [0x933, 0x93c] (.node .leaf 0x958
  [0x915, 0x93c] .leaf))) 0x959 [0x916, 0x93c] (.node (.node (.node .leaf 0x95a [0x917, 0x93c]
  .leaf) 0x95b [0x91c, 0x93c] (.node .leaf 0x95c [0x921, 0x93c] .leaf)) 0x95d [0x922, 0x93c]
  (.node (.node .leaf 0x95e [0x92b, 0x93c] .leaf) 0x95f [0x92f, 0x93c] (.node .leaf 0x9cb [0x9c7,
  0x9be] .leaf))))) 0x9cc [0x9c7, 0x9d7] (.node (.node (.node (.node (.node .leaf 0x9dc [0x9a1,
  0x9bc] .leaf) 0x9dd [0x9a2, 0x9bc] (.node .leaf 0x9df [0x9af, 0x9bc] .leaf)) 0xa33 [0xa32,
  0xa3c] (.node (.node .leaf 0xa36 [0xa38, 0xa3c] .leaf) 0xa59 [0xa16, 0xa3c] (.node .leaf 0xa5a
  [0xa17, 0xa3c] .leaf))) 0xa5b [0xa1c, 0xa3c] (.node (.node (.node .leaf 0xa5e [0xa2b, 0xa3c]
  .leaf) 0xb48 [0xb47, 0xb56] (.node .leaf 0xb4b [0xb47, 0xb3e] .leaf)) 0xb4c [0xb47, 0xb57]
  (.node (.node .leaf 0xb5c [0xb21, 0xb3c] .leaf) 0xb5d [0xb22, 0xb3c] (.node .leaf 0xb94 [0xb92,
  0xbd7] .leaf)))) 0xbca [0xbc6, 0xbbe] (.node (.node (.node (.node .leaf 0xbcb [0xbc7, 0xbbe]
  .leaf) 0xbcc [0xbc6, 0xbd7] (.node .leaf 0xc48 [0xc46, 0xc56] .leaf)) 0xcc0 [0xcbf, 0xcd5]
  (.node (.node .leaf 0xcc7 [0xcc6, 0xcd5] .leaf) 0xcc8 [0xcc6, 0xcd6] (.node .leaf 0xcca [0xcc6,
  0xcc2] .leaf))) 0xccb [0xcc6, 0xcc2, 0xcd5] (.node (.node (.node .leaf 0xd4a [0xd46, 0xd3e]
  .leaf) 0xd4b [0xd47, 0xd3e] (.node .leaf 0xd4c [0xd46, 0xd57] .leaf)) 0xdda [0xdd9, 0xdca]
  (.node (.node .leaf 0xddc [0xdd9, 0xdcf] .leaf) 0xddd [0xdd9, 0xdcf, 0xdca] (.node .leaf 0xdde
  [0xdd9, 0xddf] .leaf)))))))

def decompTree_3 : Tree (List Nat) :=
  (.node (.node (.node (.node (.node (.node (.node (.node .leaf 0xf4d [0xf4c, 0xfb7] .leaf) 0xf52
  [0xf51, 0xfb7] .leaf) 0xf57 [0xf56, 0xfb7] (.node .leaf 0xf5c [0xf5b, 0xfb7] .leaf)) 0xf69
  [0xf40, 0xfb5] (.node (.node .leaf 0xf73 [0xf71, 0xf72] .leaf) 0xf75 [0xf71, 0xf74] (.node .leaf
  0xf76 [0xfb2, 0xf80] .leaf))) 0xf78 [0xfb3, 0xf80] (.node (.node (.node .leaf 0xf81 [0xf71,
  0xf80] .leaf) 0xf93 [0xf92, 0xfb7] (.node .leaf 0xf9d [0xf9c, 0xfb7] .leaf)) 0xfa2 [0xfa1,
  0xfb7] (.node (.node .leaf 0xfa7 [0xfa6, 0xfb7] .leaf) 0xfac [0xfab, 0xfb7] (.node .leaf 0xfb9
  [0xf90, 0xfb5] .leaf)))) 0x1026 [0x1025, 0x102e] (.node (.node (.node (.node .leaf 0x1b06
  [0x1b05, 0x1b35] .leaf) 0x1b08 [0x1b07, 0x1b35] (.node .leaf 0x1b0a [0x1b09, 0x1b35] .leaf))
  0x1b0c [0x1b0b, 0x1b35] (.node (.node .leaf 0x1b0e [0x1b0d, 0x1b35] .leaf) 0x1b12 [0x1b11,
  0x1b35] (.node .leaf 0x1b3b [0x1b3a, 0x1b35] .leaf))) 0x1b3d [0x1b3c, 0x1b35] (.node (.node
  (.node .leaf 0x1b40 [0x1b3e, 0x1b35] .leaf) 0x1b41 [0x1b3f, 0x1b35] (.node .leaf 0x1b43 [0x1b42,
  0x1b35] .leaf)) 0x1e00 [0x41, 0x325] (.node (.node .leaf 0x1e01 [0x61, 0x325] .leaf) 0x1e02
  [0x42, 0x307] (.node .leaf 0x1e03 [0x62, 0x307] .leaf))))) 0x1e04 [0x42, 0x323] (.node (.node
  (.node (.node (.node .leaf 0x1e05 [0x62, 0x323] .leaf) 0x1e06 [0x42, 0x331] (.node .leaf 0x1e07
  [0x62, 0x331] .leaf)) 0x1e08 [0x43, 0x327, 0x301] (.node (.node .leaf 0x1e09 [0x63, 0x327,
  0x301] .leaf) 0x1e0a [0x44, 0x307] (.node .leaf 0x1e0b [0x64, 0x307] .leaf))) 0x1e0c [0x44,
  0x323] (.node (.node (.node .leaf 0x1e0d [0x64, 0x323] .leaf) 0x1e0e [0x44, 0x331] (.node .leaf
  0x1e0f [0x64, 0x331] .leaf)) 0x1e10 [0x44, 0x327] (.node (.node .leaf 0x1e11 [0x64, 0x327]
  .leaf) 0x1e12 [0x44, 0x32d] (.node .leaf 0x1e13 [0x64, 0x32d] .leaf)))) 0x1e14 [0x45, 0x304,
  0x300] (.node (.node (.node (.node .leaf 0x1e15 [0x65, 0x304, 0x300] .leaf) 0x1e16 [0x45, 0x304,
  0x301] (.node .leaf 0x1e17 [0x65, 0x304, 0x301] .leaf)) 0x1e18 [0x45, 0x32d] (.node (.node .leaf
  0x1e19 [0x65, 0x32d] .leaf) 0x1e1a [0x45, 0x330] (.node .leaf 0x1e1b [0x65, 0x330] .leaf)))
  0x1e1c [0x45, 0x327, 0x306] (.node (.node (.node .leaf 0x1e1d [0x65, 0x327, 0x306] .leaf) 0x1e1e
  [0x46, 0x307] (.node .leaf 0x1e1f [0x66, 0x307] .leaf)) 0x1e20 [0x47, 0x304] (.node (.node .leaf
  0x1e21 [0x67, 0x304] .leaf) 0x1e22 [0x48, 0x307] (.node .leaf 0x1e23 [0x68, 0x307] .leaf))))))
  0x1e24 [0x48, 0x323] (.node (.node (.node (.node (.node (.node .leaf 0x1e25 [0x68, 0x323] .leaf)
  0x1e26 [0x48, 0x308] (.node .leaf 0x1e27 [0x68, 0x308] .leaf)) 0x1e28 [0x48, 0x327] (.node
  (.node .leaf 0x1e29 [0x68, 0x327] .leaf) 0x1e2a [0x48, 0x32e] (.node .leaf 0x1e2b [0x68, 0x32e]
  .leaf))) 0x1e2c [0x49, 0x330] (.node (.node (.node .leaf 0x1e2d [0x69, 0x330] .leaf) 0x1e2e
  [0x49, 0x308, 0x301] (.node .leaf 0x1e2f [0x69, 0x308, 0x301] .leaf)) 0x1e30 [0x4b, 0x301]
  (.node (.node .leaf 0x1e31 [0x6b, 0x301] .leaf) 0x1e32 [0x4b, 0x323] (.node .leaf 0x1e33 [0x6b,
  0x323] .leaf)))) 0x1e34 [0x4b, 0x331] (.node (.node (.node (.node .leaf 0x1e35 [0x6b, 0x331]
  .leaf) 0x1e36 [0x4c, 0x323] (.node .leaf 0x1e37 [0x6c, 0x323] .leaf)) 0x1e38 [0x4c, 0x323,
  0x304] (.node (.node .leaf 0x1e39 [0x6c, 0x323, 0x304] .leaf) 0x1e3a [0x4c, 0x331] (.node .leaf
  0x1e3b [0x6c, 0x331] .leaf))) 0x1e3c [0x4c, 0x32d] (.node (.node (.node .leaf 0x1e3d [0x6c,
  0x32d] .leaf) 0x1e3e [0x4d, 0x301] (.node .leaf 0x1e3f [0x6d, 0x301] .leaf)) 0x1e40 [0x4d,
  0x307] (.node (.node .leaf 0x1e41 [0x6d, 0x307] .leaf) 0x1e42 [0x4d, 0x323] (.node .leaf 0x1e43
  [0x6d, 0x323] .leaf))))) 0x1e44 [0x4e, 0x307] (.node (.node (.node (.node (.node .leaf 0x1e45
  [0x6e, 0x307] .leaf) 0x1e46 [0x4e, 0x323] (.node .leaf 0x1e47 [0x6e, 0x323] .leaf)) 0x1e48
  [0x4e, 0x331] (.node (.node .leaf 0x1e49 [0x6e, 0x331] .leaf) 0x1e4a [0x4e, 0x32d] (.node .leaf
  0x1e4b [0x6e, 0x32d] .leaf))) 0x1e4c [0x4f, 0x303, 0x301] (.node (.node (.node .leaf 0x1e4d
  [0x6f, 0x303, 0x301] .leaf) 0x1e4e [0x4f, 0x303, 0x308] (.node .leaf 0x1e4f [0x6f, 0x303, 0x308]
  .leaf)) 0x1e50 [0x4f, 0x304, 0x300] (.node (.node .leaf 0x1e51 [0x6f, 0x304, 0x300] .leaf)
  0x1e52 [0x4f, 0x304, 0x301] (.node .leaf 0x1e53 [0x6f, 0x304, 0x301] .leaf)))) 0x1e54 [0x50,
  0x301] (.node (.node (.node (.node .leaf 0x1e55 [0x70, 0x301] .leaf) 0x1e56 [0x50, 0x307] (.node
  .leaf 0x1e57 [0x70, 0x307] .leaf)) 0x1e58 [0x52, 0x307] (.node (.node .leaf 0x1e59 [0x72, 0x307]
  .leaf) 0x1e5a [0x52, 0x323] (.node .leaf 0x1e5b [0x72, 0x323] .leaf))) 0x1e5c [0x52, 0x323,
  0x304] (.node (.node (.node .leaf 0x1e5d [0x72, 0x323, 0x304] .leaf) 0x1e5e [0x52, 0x331] (.node
  .leaf 0x1e5f [0x72, 0x331] .leaf)) 0x1e60 [0x53, 0x307] (.node (.node .leaf 0x1e61 [0x73, 0x307]
  .leaf) 0x1e62 [0x53, 0x323] (.node .leaf 0x1e63 [0x73, 0x323] .leaf)))))))

def decompTree_4 : Tree (List Nat) :=
  (.node (.node (.node (.node (.node (.node (.node (.node .leaf 0x1e65 [0x73, 0x301, 0x307] .leaf)
  0x1e66 [0x53, 0x30c, 0x307] .leaf) 0x1e67 [0x73, 0x30c, 0x307] (.node .leaf 0x1e68 [0x53, 0x323,
  0x307] .leaf)) 0x1e69 [0x73, 0x323, 0x307] (.node (.node .leaf 0x1e6a [0x54, 0x307] .leaf)
  0x1e6b [0x74, 0x307] (.node .leaf 0x1e6c [0x54, 0x323] .leaf))) 0x1e6d [0x74, 0x323] (.node
  (.node (.node .leaf 0x1e6e [0x54, 0x331] .leaf) 0x1e6f [0x74, 0x331] (.node .leaf 0x1e70 [0x54,
  0x32d] .leaf)) 0x1e71 [0x74, 0x32d] (.node (.node .leaf 0x1e72 [0x55, 0x324] .leaf) 0x1e73
  [0x75, 0x324] (.node .leaf 0x1e74 [0x55, 0x330] .leaf)))) 0x1e75 [0x75, 0x330] (.node (.node
  (.node (.node .leaf 0x1e76 [0x55, 0x32d] .leaf) 0x1e77 [0x75, 0x32d] (.node .leaf 0x1e78 [0x55,
  0x303, 0x301] .leaf)) 0x1e79 [0x75, 0x303, 0x301] (.node (.node .leaf 0x1e7a [0x55, 0x304,
  0x308] .leaf) 0x1e7b [0x75, 0x304, 0x308] (.node .leaf 0x1e7c [0x56, 0x303] .leaf))) 0x1e7d
  [0x76, 0x303] (.node (.node (.node .leaf 0x1e7e [0x56, 0x323] .leaf) 0x1e7f [0x76, 0x323] (.node
  .leaf 0x1e80 [0x57, 0x300] .leaf)) 0x1e81 [0x77, 0x300] (.node (.node .leaf 0x1e82 [0x57, 0x301]
  .leaf) 0x1e83 [0x77, 0x301] (.node .leaf 0x1e84 [0x57, 0x308] .leaf))))) 0x1e85 [0x77, 0x308]
  (.node (.node (.node (.node (.node .leaf 0x1e86 [0x57, 0x307] .leaf) 0x1e87 [0x77, 0x307] (.node
  .leaf 0x1e88 [0x57, 0x323] .leaf)) 0x1e89 [0x77, 0x323] (.node (.node .leaf 0x1e8a [0x58, 0x307]
  .leaf) 0x1e8b [0x78, 0x307] (.node .leaf 0x1e8c [0x58, 0x308] .leaf))) 0x1e8d [0x78, 0x308]
  (.node (.node (.node .leaf 0x1e8e [0x59, 0x307] .leaf) 0x1e8f [0x79, 0x307] (.node .leaf 0x1e90
  [0x5a, 0x302] .leaf)) 0x1e91 [0x7a, 0x302] (.node (.node .leaf 0x1e92 [0x5a, 0x323] .leaf)
  0x1e93 [0x7a, 0x323] (.node .leaf 0x1e94 [0x5a, 0x331] .leaf)))) 0x1e95 [0x7a, 0x331] (.node
  (.node (.node (.node .leaf 0x1e96 [0x68, 0x331] .leaf) 0x1e97 [0x74, 0x308] (.node .leaf 0x1e98
  [0x77, 0x30a] .leaf)) 0x1e99 [0x79, 0x30a] (.node (.node .leaf 0x1e9b [0x17f, 0x307] .leaf)
  0x1ea0 [0x41, 0x323] (.node .leaf 0x1ea1 [0x61, 0x323] .leaf))) 0x1ea2 [0x41, 0x309] (.node
  (.node (.node .leaf 0x1ea3 [0x61, 0x309] .leaf) 0x1ea4 [0x41, 0x302, 0x301] (.node .leaf 0x1ea5
  [0x61, 0x302, 0x301] .leaf)) 0x1ea6 [0x41, 0x302, 0x300] (.node (.node .leaf 0x1ea7 [0x61,
  0x302, 0x300] .leaf) 0x1ea8 [0x41, 0x302, 0x309] (.node .leaf 0x1ea9 [0x61, 0x302, 0x309]
  .leaf)))))) 0x1eaa [0x41, 0x302, 0x303] (.node (.node (.node (.node (.node (.node .leaf 0x1eab
  [0x61, 0x302, 0x303] .leaf) 0x1eac [0x41, 0x323, 0x302] (.node .leaf 0x1ead [0x61, 0x323, 0x302]
  .leaf)) 0x1eae [0x41, 0x306, 0x301] (.node (.node .leaf 0x1eaf [0x61, 0x306, 0x301] .leaf)
  0x1eb0 [0x41, 0x306, 0x300] (.node .leaf 0x1eb1 [0x61, 0x306, 0x300] .leaf))) 0x1eb2 [0x41,
  0x306, 0x309] (.node (.node (.node .leaf 0x1eb3 [0x61, 0x306, 0x309] .leaf) 0x1eb4 [0x41, 0x306,
  0x303] (.node .leaf 0x1eb5 [0x61, 0x306, 0x303] .leaf)) 0x1eb6 [0x41, 0x323, 0x306] (.node
  (.node .leaf 0x1eb7 [0x61, 0x323, 0x306] .leaf) 0x1eb8 [0x45, 0x323] (.node .leaf 0x1eb9 [0x65,
  0x323] .leaf)))) 0x1eba [0x45, 0x309] (.node (.node (.node (.node .leaf 0x1ebb [0x65, 0x309]
  .leaf) 0x1ebc [0x45, 0x303] (.node .leaf 0x1ebd [0x65, 0x303] .leaf)) 0x1ebe [0x45, 0x302,
  0x301] (.node (.node .leaf 0x1ebf [0x65, 0x302, 0x301] .leaf) 0x1ec0 [0x45, 0x302, 0x300] (.node
  .leaf 0x1ec1 [0x65, 0x302, 0x300] .leaf))) 0x1ec2 [0x45, 0x302, 0x309] (.node (.node (.node
  .leaf 0x1ec3 [0x65, 0x302, 0x309] .leaf) 0x1ec4 [0x45, 0x302, 0x303] (.node .leaf 0x1ec5 [0x65,
  0x302, 0x303] .leaf)) 0x1ec6 [0x45, 0x323, 0x302] (.node (.node .leaf 0x1ec7 [0x65, 0x323,
  0x302] .leaf) 0x1ec8 [0x49, 0x309] (.node .leaf 0x1ec9 [0x69, 0x309] .leaf))))) 0x1eca [0x49,
  0x323] (.node (.node (.node (.node (.node .leaf 0x1ecb [0x69, 0x323] .leaf) 0x1ecc [0x4f, 0x323]
  (.node .leaf 0x1ecd [0x6f, 0x323] .leaf)) 0x1ece [0x4f, 0x309] (.node (.node .leaf 0x1ecf [0x6f,
  0x309] .leaf) 0x1ed0 [0x4f, 0x302, 0x301] (.node .leaf 0x1ed1 [0x6f, 0x302, 0x301] .leaf)))
  0x1ed2 [0x4f, 0x302, 0x300] (.node (.node (.node .leaf 0x1ed3 [0x6f, 0x302, 0x300] .leaf) 0x1ed4
  [0x4f, 0x302, 0x309] (.node .leaf 0x1ed5 [0x6f, 0x302, 0x309] .leaf)) 0x1ed6 [0x4f, 0x302,
  0x303] (.node (.node .leaf 0x1ed7 [0x6f, 0x302, 0x303] .leaf) 0x1ed8 [0x4f, 0x323, 0x302] (.node
  .leaf 0x1ed9 [0x6f, 0x323, 0x302] .leaf)))) 0x1eda [0x4f, 0x31b, 0x301] (.node (.node (.node
  (.node .leaf 0x1edb [0x6f, 0x31b, 0x301] .leaf) 0x1edc [0x4f, 0x31b, 0x300] (.node .leaf 0x1edd
  [0x6f, 0x31b, 0x300] .leaf)) 0x1ede [0x4f, 0x31b, 0x309] (.node (.node .leaf 0x1edf [0x6f,
  0x31b, 0x309] .leaf) 0x1ee0 [0x4f, 0x31b, 0x303] (.node .leaf 0x1ee1 [0x6f, 0x31b, 0x303]
  .leaf))) 0x1ee2 [0x4f, 0x31b, 0x323] (.node (.node (.node .leaf 0x1ee3 [0x6f, 0x31b, 0x323]
  .leaf) 0x1ee4 [0x55, 0x323] (.node .leaf 0x1ee5 [0x75, 0x323] .leaf)) 0x1ee6 [0x55, 0x309]
  (.node (.node .leaf 0x1ee7 [0x75, 0x309] .leaf) 0x1ee8 [0x55, 0x31b, 0x301] (.node .leaf 0x1ee9
  [0x75, 0x31b, 0x301] .leaf)))))))

def decompTree_5 : Tree (List Nat) :=
  (.node (.node (.node (.node (.node (.node (.node (.node .leaf 0x1eeb [0x75, 0x31b, 0x300] .leaf)
  0x1eec [0x55, 0x31b, 0x309] .leaf) 0x1eed [0x75, 0x31b, 0x309] (.node .leaf 0x1eee [0x55, 0x31b,
  0x303] .leaf)) 0x1eef [0x75, 0x31b, 0x303] (.node (.node .leaf 0x1ef0 [0x55, 0x31b, 0x323]
  .leaf) 0x1ef1 [0x75, 0x31b, 0x323] (.node .leaf 0x1ef2 [0x59, 0x300] .leaf))) 0x1ef3 [0x79,
  0x300] (.node (.node (.node .leaf 0x1ef4 [0x59, 0x323] .leaf) 0x1ef5 [0x79, 0x323] (.node .leaf
  0x1ef6 [0x59, 0x309] .leaf)) 0x1ef7 [0x79, 0x309] (.node (.node .leaf 0x1ef8 [0x59, 0x303]
  .leaf) 0x1ef9 [0x79, 0x303] (.node .leaf 0x1f00 [0x3b1, 0x313] .leaf)))) 0x1f01 [0x3b1, 0x314]
  (.node (.node (.node (.node .leaf 0x1f02 [0x3b1, 0x313, 0x300] .leaf) 0x1f03 [0x3b1, 0x314,
  0x300] (.node .leaf 0x1f04 [0x3b1, 0x313, 0x301] .leaf)) 0x1f05 [0x3b1, 0x314, 0x301] (.node
  (.node .leaf 0x1f06 [0x3b1, 0x313, 0x342] .leaf) 0x1f07 [0x3b1, 0x314, 0x342] (.node .leaf
  0x1f08 [0x391, 0x313] .leaf))) 0x1f09 [0x391, 0x314] (.node (.node (.node .leaf 0x1f0a [0x391,
  0x313, 0x300] .leaf) 0x1f0b [0x391, 0x314, 0x300] (.node .leaf 0x1f0c [0x391, 0x313, 0x301]
  .leaf)) 0x1f0d [0x391, 0x314, 0x301] (.node (.node .leaf 0x1f0e [0x391, 0x313, 0x342] .leaf)
  0x1f0f [0x391, 0x314, 0x342] (.node .leaf 0x1f10 [0x3b5, 0x313] .leaf))))) 0x1f11 [0x3b5, 0x314]
  (.node (.node (.node (.node (.node .leaf 0x1f12 [0x3b5, 0x313, 0x300] .leaf) 0x1f13 [0x3b5,
  0x314, 0x300] (.node .leaf 0x1f14 [0x3b5, 0x313, 0x301] .leaf)) 0x1f15 [0x3b5, 0x314, 0x301]
  (.node (.node .leaf 0x1f18 [0x395, 0x313] .leaf) 0x1f19 [0x395, 0x314] (.node .leaf 0x1f1a
  [0x395, 0x313, 0x300] .leaf))) 0x1f1b [0x395, 0x314, 0x300] (.node (.node (.node .leaf 0x1f1c
  [0x395, 0x313, 0x301] .leaf) 0x1f1d [0x395, 0x314, 0x301] (.node .leaf 0x1f20 [0x3b7, 0x313]
  .leaf)) 0x1f21 [0x3b7, 0x314] (.node (.node .leaf 0x1f22 [0x3b7, 0x313, 0x300] .leaf) 0x1f23
  [0x3b7, 0x314, 0x300] (.node .leaf 0x1f24 [0x3b7, 0x313, 0x301] .leaf)))) 0x1f25 [0x3b7, 0x314,
  0x301] (.node (.node (.node (.node .leaf 0x1f26 [0x3b7, 0x313, 0x342] .leaf) 0x1f27 [0x3b7,
  0x314, 0x342] (.node .leaf 0x1f28 [0x397, 0x313] .leaf)) 0x1f29 [0x397, 0x314] (.node (.node
  .leaf 0x1f2a [0x397, 0x313, 0x300] .leaf) 0x1f2b [0x397, 0x314, 0x300] (.node .leaf 0x1f2c
  [0x397, 0x313, 0x301] .leaf))) 0x1f2d [0x397, 0x314, 0x301] (.node (.node (.node .leaf 0x1f2e
  [0x397, 0x313, 0x342] .leaf) 0x1f2f [0x397, 0x314, 0x342] (.node .leaf 0x1f30 [0x3b9, 0x313]
  .leaf)) 0x1f31 [0x3b9, 0x314] (.node (.node .leaf 0x1f32 [0x3b9, 0x313, 0x300] .leaf) 0x1f33
  [0x3b9, 0x314, 0x300] (.node .leaf 0x1f34 [0x3b9, 0x313, 0x301] .leaf)))))) 0x1f35 [0x3b9,
  0x314, 0x301] (.node (.node (.node (.node (.node (.node .leaf 0x1f36 [0x3b9, 0x313, 0x342]
  .leaf) 0x1f37 [0x3b9, 0x314, 0x342] (.node .leaf 0x1f38 [0x399, 0x313] .leaf)) 0x1f39 [0x399,
  0x314] (.node (.node .leaf 0x1f3a [0x399, 0x313, 0x300] .leaf) 0x1f3b [0x399, 0x314, 0x300]
  (.node .leaf 0x1f3c [0x399, 0x313, 0x301] .leaf))) 0x1f3d [0x399, 0x314, 0x301] (.node (.node
  (.node .leaf 0x1f3e [0x399, 0x313, 0x342] .leaf) 0x1f3f [0x399, 0x314, 0x342] (.node .leaf
  0x1f40 [0x3bf, 0x313] .leaf)) 0x1f41 [0x3bf, 0x314] (.node (.node .leaf 0x1f42 [0x3bf, 0x313,
  0x300] .leaf) 0x1f43 [0x3bf, 0x314, 0x300] (.node .leaf 0x1f44 [0x3bf, 0x313, 0x301] .leaf))))
  0x1f45 [0x3bf, 0x314, 0x301] (.node (.node (.node (.node .leaf 0x1f48 [0x39f, 0x313] .leaf)
  0x1f49 [0x39f, 0x314] (.node .leaf 0x1f4a [0x39f, 0x313, 0x300] .leaf)) 0x1f4b [0x39f, 0x314,
  0x300] (.node (.node .leaf 0x1f4c [0x39f, 0x313, 0x301] .leaf) 0x1f4d [0x39f, 0x314, 0x301]
  (.node .leaf 0x1f50 [0x3c5, 0x313] .leaf))) 0x1f51 [0x3c5, 0x314] (.node (.node (.node .leaf
  0x1f52 [0x3c5, 0x313, 0x300] .leaf) 0x1f53 [0x3c5, 0x314, 0x300] (.node .leaf 0x1f54 [0x3c5,
  0x313, 0x301] .leaf)) 0x1f55 [0x3c5, 0x314, 0x301] (.node (.node .leaf 0x1f56 [0x3c5, 0x313,
  0x342] .leaf) 0x1f57 [0x3c5, 0x314, 0x342] (.node .leaf 0x1f59 [0x3a5, 0x314] .leaf))))) 0x1f5b
  [0x3a5, 0x314, 0x300] (.node (.node (.node (.node (.node .leaf 0x1f5d [0x3a5, 0x314, 0x301]
  .leaf) 0x1f5f [0x3a5, 0x314, 0x342] (.node .leaf 0x1f60 [0x3c9, 0x313] .leaf)) 0x1f61 [0x3c9,
  0x314] (.node (.node .leaf 0x1f62 [0x3c9, 0x313, 0x300] .leaf) 0x1f63 [0x3c9, 0x314, 0x300]
  (.node .leaf 0x1f64 [0x3c9, 0x313, 0x301] .leaf))) 0x1f65 [0x3c9, 0x314, 0x301] (.node (.node
  (.node .leaf 0x1f66 [0x3c9, 0x313, 0x342] .leaf) 0x1f67 [0x3c9, 0x314, 0x342] (.node .leaf
  0x1f68 [0x3a9, 0x313] .leaf)) 0x1f69 [0x3a9, 0x314] (.node (.node .leaf 0x1f6a [0x3a9, 0x313,
  0x300] .leaf) 0x1f6b [0x3a9, 0x314, 0x300] (.node .leaf 0x1f6c [0x3a9, 0x313, 0x301] .leaf))))
  0x1f6d [0x3a9, 0x314, 0x301] (.node (.node (.node (.node .leaf 0x1f6e [0x3a9, 0x313, 0x342]
  .leaf) 0x1f6f [0x3a9, 0x314, 0x342] (.node .leaf 0x1f70 [0x3b1, 0x300] .leaf)) 0x1f71 [0x3b1,
  0x301] (.node (.node .leaf 0x1f72 [0x3b5, 0x300] .leaf) 0x1f73 [0x3b5, 0x301] (.node .leaf
  0x1f74 [0x3b7, 0x300] .leaf))) 0x1f75 [0x3b7, 0x301] (.node (.node (.node .leaf 0x1f76 [0x3b9,
  0x300] .leaf) 0x1f77 [0x3b9, 0x301] (.node .leaf 0x1f78 [0x3bf, 0x300] .leaf)) 0x1f79 [0x3bf,
  0x301] (.node (.node .leaf 0x1f7a [0x3c5, 0x300] .leaf) 0x1f7b [0x3c5, 0x301] (.node .leaf
  0x1f7c [0x3c9, 0x300] .leaf)))))))

def decompTree_6 : Tree (List Nat) :=
  (.node (.node (.node (.node (.node (.node (.node (.node .leaf 0x1f80 [0x3b1, 0x313, 0x345]
  .leaf) 0x1f81 [0x3b1, 0x314, 0x345] .leaf) 0x1f82 [0x3b1, 0x313, 0x300, 0x345] (.node .leaf
  0x1f83 [0x3b1, 0x314, 0x300, 0x345] .leaf)) 0x1f84 [0x3b1, 0x313, 0x301, 0x345] (.node (.node
  .leaf 0x1f85 [0x3b1, 0x314, 0x301, 0x345] .leaf) 0x1f86 [0x3b1, 0x313, 0x342, 0x345] (.node
  .leaf 0x1f87 [0x3b1, 0x314, 0x342, 0x345] .leaf))) 0x1f88 [0x391, 0x313, 0x345] (.node (.node
  (.node .leaf 0x1f89 [0x391, 0x314, 0x345] .leaf) 0x1f8a [0x391, 0x313, 0x300, 0x345] (.node
  .leaf 0x1f8b [0x391, 0x314, 0x300, 0x345] .leaf)) 0x1f8c [0x391, 0x313, 0x301, 0x345] (.node
  (.node .leaf 0x1f8d [0x391, 0x314, 0x301, 0x345] .leaf) 0x1f8e [0x391, 0x313, 0x342, 0x345]
  (.node .leaf 0x1f8f [0x391, 0x314, 0x342, 0x345] .leaf)))) 0x1f90 [0x3b7, 0x313, 0x345] (.node
  (.node (.node (.node .leaf 0x1f91 [0x3b7, 0x314, 0x345] .leaf) 0x1f92 [0x3b7, 0x313, 0x300,
  0x345] (.node .leaf 0x1f93 [0x3b7, 0x314, 0x300, 0x345] .leaf)) 0x1f94 [0x3b7, 0x313, 0x301,
  0x345] (.node (.node .leaf 0x1f95 [0x3b7, 0x314, 0x301, 0x345] .leaf) 0x1f96 [0x3b7, 0x313,
  0x342, 0x345] (.node .leaf 0x1f97 [0x3b7, 0x314, 0x342, 0x345] .leaf))) 0x1f98 [0x397, 0x313,
  0x345] (.node (.node (.node .leaf 0x1f99 [0x397, 0x314, 0x345] .leaf) 0x1f9a [0x397, 0x313,
  0x300, 0x345] (.node .leaf 0x1f9b [0x397, 0x314, 0x300, 0x345] .leaf)) 0x1f9c [0x397, 0x313,
  0x301, 0x345] (.node (.node .leaf 0x1f9d [0x397, 0x314, 0x301, 0x345] .leaf) 0x1f9e [0x397,
  0x313, 0x342, 0x345] (.node .leaf 0x1f9f [0x397, 0x314, 0x342, 0x345] .leaf))))) 0x1fa0 [0x3c9,
  0x313, 0x345] (.node (.node (.node (.node (.node .leaf 0x1fa1 [0x3c9, 0x314, 0x345] .leaf)
  0x1fa2 [0x3c9, 0x313, 0x300, 0x345] (.node .leaf 0x1fa3 [0x3c9, 0x314, 0x300, 0x345] .leaf))
  0x1fa4 [0x3c9, 0x313, 0x301, 0x345] (.node (.node .leaf 0x1fa5 [0x3c9, 0x314, 0x301, 0x345]
  .leaf) 0x1fa6 [0x3c9, 0x313, 0x342, 0x345] (.node .leaf 0x1fa7 [0x3c9, 0x314, 0x342, 0x345]
  .leaf))) 0x1fa8 [0x3a9, 0x313, 0x345] (.node (.node (.node .leaf 0x1fa9 [0x3a9, 0x314, 0x345]
  .leaf) 0x1faa [0x3a9, 0x313, 0x300, 0x345] (.node .leaf 0x1fab [0x3a9, 0x314, 0x300, 0x345]
  .leaf)) 0x1fac [0x3a9, 0x313, 0x301, 0x345] (.node (.node .leaf 0x1fad [0x3a9, 0x314, 0x301,
  0x345] .leaf) 0x1fae [0x3a9, 0x313, 0x342, 0x345] (.node .leaf 0x1faf [0x3a9, 0x314, 0x342,
  0x345] .leaf)))) 0x1fb0 [0x3b1, 0x306] (.node (.node (.node (.node .leaf 0x1fb1 [0x3b1, 0x304]
  .leaf) 0x1fb2 [0x3b1, 0x300, 0x345] (.node .leaf 0x1fb3 [0x3b1, 0x345] .leaf)) 0x1fb4 [0x3b1,
  0x301, 0x345] (.node (.node .leaf 0x1fb6 [0x3b1, 0x342] .leaf) 0x1fb7 [0x3b1, 0x342, 0x345]
  (.node .leaf 0x1fb8 [0x391, 0x306] .leaf))) 0x1fb9 [0x391, 0x304] (.node (.node (.node .leaf
  0x1fba [0x391, 0x300] .leaf) 0x1fbb [0x391, 0x301] (.node .leaf 0x1fbc [0x391, 0x345] .leaf))
  0x1fbe [0x3b9] (.node (.node .leaf 0x1fc1 [0xa8, 0x342] .leaf) 0x1fc2 [0x3b7, 0x300, 0x345]
  (.node .leaf 0x1fc3 [0x3b7, 0x345] .leaf)))))) 0x1fc4 [0x3b7, 0x301, 0x345] (.node (.node (.node
  (.node (.node (.node .leaf 0x1fc6 [0x3b7, 0x342] .leaf) 0x1fc7 [0x3b7, 0x342, 0x345] (.node
  .leaf 0x1fc8 [0x395, 0x300] .leaf)) 0x1fc9 [0x395, 0x301] (.node (.node .leaf 0x1fca [0x397,
  0x300] .leaf) 0x1fcb [0x397, 0x301] (.node .leaf 0x1fcc [0x397, 0x345] .leaf))) 0x1fcd [0x1fbf,
  0x300] (.node (.node (.node .leaf 0x1fce [0x1fbf, 0x301] .leaf) 0x1fcf [0x1fbf, 0x342] (.node
  .leaf 0x1fd0 [0x3b9, 0x306] .leaf)) 0x1fd1 [0x3b9, 0x304] (.node (.node .leaf 0x1fd2 [0x3b9,
  0x308, 0x300] .leaf) 0x1fd3 [0x3b9, 0x308, 0x301] (.node .leaf 0x1fd6 [0x3b9, 0x342] .leaf))))
  0x1fd7 [0x3b9, 0x308, 0x342] (.node (.node (.node (.node .leaf 0x1fd8 [0x399, 0x306] .leaf)
  0x1fd9 [0x399, 0x304] (.node .leaf 0x1fda [0x399, 0x300] .leaf)) 0x1fdb [0x399, 0x301] (.node
  (.node .leaf 0x1fdd [0x1ffe, 0x300] .leaf) 0x1fde [0x1ffe, 0x301] (.node .leaf 0x1fdf [0x1ffe,
  0x342] .leaf))) 0x1fe0 [0x3c5, 0x306] (.node (.node (.node .leaf 0x1fe1 [0x3c5, 0x304] .leaf)
  0x1fe2 [0x3c5, 0x308, 0x300] (.node .leaf 0x1fe3 [0x3c5, 0x308, 0x301] .leaf)) 0x1fe4 [0x3c1,
  0x313] (.node (.node .leaf 0x1fe5 [0x3c1, 0x314] .leaf) 0x1fe6 [0x3c5, 0x342] (.node .leaf
  0x1fe7 [0x3c5, 0x308, 0x342] .leaf))))) 0x1fe8 [0x3a5, 0x306] (.node (.node (.node (.node (.node
  .leaf 0x1fe9 [0x3a5, 0x304] .leaf) 0x1fea [0x3a5, 0x300] (.node .leaf 0x1feb [0x3a5, 0x301]
  .leaf)) 0x1fec [0x3a1, 0x314] (.node (.node .leaf 0x1fed [0xa8, 0x300] .leaf) 0x1fee [0xa8,
  0x301] (.node .leaf 0x1fef [0x60] .leaf))) 0x1ff2 [0x3c9, 0x300, 0x345] (.node (.node (.node
  .leaf 0x1ff3 [0x3c9, 0x345] .leaf) 0x1ff4 [0x3c9, 0x301, 0x345] (.node .leaf 0x1ff6 [0x3c9,
  0x342] .leaf)) 0x1ff7 [0x3c9, 0x342, 0x345] (.node (.node .leaf 0x1ff8 [0x39f, 0x300] .leaf)
  0x1ff9 [0x39f, 0x301] (.node .leaf 0x1ffa [0x3a9, 0x300] .leaf)))) 0x1ffb [0x3a9, 0x301] (.node
  (.node (.node (.node .leaf 0x1ffc [0x3a9, 0x345] .leaf) 0x1ffd [0xb4] (.node .leaf 0x2000
  [0x2002] .leaf)) 0x2001 [0x2003] (.node (.node .leaf 0x2126 [0x3a9] .leaf) 0x212a [0x4b] (.node
  .leaf 0x212b [0x41, 0x30a] .leaf))) 0x219a [0x2190, 0x338] (.node (.node (.node .leaf 0x219b
  [0x2192, 0x338] .leaf) 0x21ae [0x2194, 0x338] (.node .leaf 0x21cd [0x21d0, 0x338] .leaf)) 0x21ce
  [0x21d4, 0x338] (.node (.node .leaf 0x21cf [0x21d2, 0x338] .leaf) 0x2204 [0x2203, 0x338] (.node
  .leaf 0x2209 [0x2208, 0x338] .leaf)))))))

def decompTree_7 : Tree (List Nat) :=
  (.node (.node (.node (.node (.node (.node (.node .leaf 0x2224 [0x2223, 0x338] .leaf) 0x2226
  [0x2225, 0x338] (.node .leaf 0x2241 [0x223c, 0x338] .leaf)) 0x2244 [0x2243, 0x338] (.node (.node
  .leaf 0x2247 [0x2245, 0x338] .leaf) 0x2249 [0x2248, 0x338] (.node .leaf 0x2260 [0x3d, 0x338]
  .leaf))) 0x2262 [0x2261, 0x338] (.node (.node (.node .leaf 0x226d [0x224d, 0x338] .leaf) 0x226e
  [0x3c, 0x338] (.node .leaf 0x226f [0x3e, 0x338] .leaf)) 0x2270 [0x2264, 0x338] (.node (.node
  .leaf 0x2271 [0x2265, 0x338] .leaf) 0x2274 [0x2272, 0x338] (.node .leaf 0x2275 [0x2273, 0x338]
  .leaf)))) 0x2278 [0x2276, 0x338] (.node (.node (.node (.node .leaf 0x2279 [0x2277, 0x338] .leaf)
  0x2280 [0x227a, 0x338] (.node .leaf 0x2281 [0x227b, 0x338] .leaf)) 0x2284 [0x2282, 0x338] (.node
  (.node .leaf 0x2285 [0x2283, 0x338] .leaf) 0x2288 [0x2286, 0x338] (.node .leaf 0x2289 [0x2287,
  0x338] .leaf))) 0x22ac [0x22a2, 0x338] (.node (.node (.node .leaf 0x22ad [0x22a8, 0x338] .leaf)
  0x22ae [0x22a9, 0x338] (.node .leaf 0x22af [0x22ab, 0x338] .leaf)) 0x22e0 [0x227c, 0x338] (.node
  (.node .leaf 0x22e1 [0x227d, 0x338] .leaf) 0x22e2 [0x2291, 0x338] (.node .leaf 0x22e3 [0x2292,
  0x338] .leaf))))) 0x22ea [0x22b2, 0x338] (.node (.node (.node (.node (.node .leaf 0x22eb
  [0x22b3, 0x338] .leaf) 0x22ec [0x22b4, 0x338] (.node .leaf 0x22ed [0x22b5, 0x338] .leaf)) 0x2329
  [0x3008] (.node (.node .leaf 0x232a [0x3009] .leaf) 0x2adc [0x2add, 0x338] (.node .leaf 0x304c
  [0x304b, 0x3099] .leaf))) 0x304e [0x304d, 0x3099] (.node (.node (.node .leaf 0x3050 [0x304f,
  0x3099] .leaf) 0x3052 [0x3051, 0x3099] (.node .leaf 0x3054 [0x3053, 0x3099] .leaf)) 0x3056
  [0x3055, 0x3099] (.node (.node .leaf 0x3058 [0x3057, 0x3099] .leaf) 0x305a [0x3059, 0x3099]
  (.node .leaf 0x305c [0x305b, 0x3099] .leaf)))) 0x305e [0x305d, 0x3099] (.node (.node (.node
  (.node .leaf 0x3060 [0x305f, 0x3099] .leaf) 0x3062 [0x3061, 0x3099] (.node .leaf 0x3065 [0x3064,
  0x3099] .leaf)) 0x3067 [0x3066, 0x3099] (.node (.node .leaf 0x3069 [0x3068, 0x3099] .leaf)
  0x3070 [0x306f, 0x3099] (.node .leaf 0x3071 [0x306f, 0x309a] .leaf))) 0x3073 [0x3072, 0x3099]
  (.node (.node (.node .leaf 0x3074 [0x3072, 0x309a] .leaf) 0x3076 [0x3075, 0x3099] (.node .leaf
  0x3077 [0x3075, 0x309a] .leaf)) 0x3079 [0x3078, 0x3099] (.node (.node .leaf 0x307a [0x3078,
  0x309a] .leaf) 0x307c [0x307b, 0x3099] (.node .leaf 0x307d [0x307b, 0x309a] .leaf)))))) 0x3094
  [0x3046, 0x3099] (.node (.node (.node (.node (.node (.node .leaf 0x309e [0x309d, 0x3099] .leaf)
  0x30ac [0x30ab, 0x3099] (.node .leaf 0x30ae [0x30ad, 0x3099] .leaf)) 0x30b0 [0x30af, 0x3099]
  (.node (.node .leaf 0x30b2 [0x30b1, 0x3099] .leaf) 0x30b4 [0x30b3, 0x3099] (.node .leaf 0x30b6
  [0x30b5, 0x3099] .leaf))) 0x30b8 [0x30b7, 0x3099] (.node (.node (.node .leaf 0x30ba [0x30b9,
  0x3099] .leaf) 0x30bc [0x30bb, 0x3099] (.node .leaf 0x30be [0x30bd, 0x3099] .leaf)) 0x30c0
  [0x30bf, 0x3099] (.node (.node .leaf 0x30c2 [0x30c1, 0x3099] .leaf) 0x30c5 [0x30c4, 0x3099]
  (.node .leaf 0x30c7 [0x30c6, 0x3099] .leaf)))) 0x30c9 [0x30c8, 0x3099] (.node (.node (.node
  (.node .leaf 0x30d0 [0x30cf, 0x3099] .leaf) 0x30d1 [0x30cf, 0x309a] (.node .leaf 0x30d3 [0x30d2,
  0x3099] .leaf)) 0x30d4 [0x30d2, 0x309a] (.node (.node .leaf 0x30d6 [0x30d5, 0x3099] .leaf)
  0x30d7 [0x30d5, 0x309a] (.node .leaf 0x30d9 [0x30d8, 0x3099] .leaf))) 0x30da [0x30d8, 0x309a]
  (.node (.node (.node .leaf 0x30dc [0x30db, 0x3099] .leaf) 0x30dd [0x30db, 0x309a] (.node .leaf
  0x30f4 [0x30a6, 0x3099] .leaf)) 0x30f7 [0x30ef, 0x3099] (.node (.node .leaf 0x30f8 [0x30f0,
  0x3099] .leaf) 0x30f9 [0x30f1, 0x3099] (.node .leaf 0x30fa [0x30f2, 0x3099] .leaf))))) 0x30fe
  [0x30fd, 0x3099] (.node (.node (.node (.node (.node .leaf 0xf900 [0x8c48] .leaf) 0xf901 [0x66f4]
  (.node .leaf 0xf902 [0x8eca] .leaf)) 0xf903 [0x8cc8] (.node (.node .leaf 0xf904 [0x6ed1] .leaf)
  0xf905 [0x4e32] (.node .leaf 0xf906 [0x53e5] .leaf))) 0xf907 [0x9f9c] (.node (.node (.node .leaf
  0xf908 [0x9f9c] .leaf) 0xf909 [0x5951] (.node .leaf 0xf90a [0x91d1] .leaf)) 0xf90b [0x5587]
  (.node (.node .leaf 0xf90c [0x5948] .leaf) 0xf90d [0x61f6] (.node .leaf 0xf90e [0x7669]
  .leaf)))) 0xf90f [0x7f85] (.node (.node (.node (.node .leaf 0xf910 [0x863f] .leaf) 0xf911
  [0x87ba] (.node .leaf 0xf912 [0x88f8] .leaf)) 0xf913 [0x908f] (.node (.node .leaf 0xf914
  [0x6a02] .leaf) 0xf915 [0x6d1b] (.node .leaf 0xf916 [0x70d9] .leaf))) 0xf917 [0x73de] (.node
  (.node (.node .leaf 0xf918 [0x843d] .leaf) 0xf919 [0x916a] (.node .leaf 0xf91a [0x99f1] .leaf))
  0xf91b [0x4e82] (.node (.node .leaf 0xf91c [0x5375] .leaf) 0xf91d [0x6b04] (.node .leaf 0xf91e
  [0x721b] .leaf)))))))

def decompTree_8 : Tree (List Nat) :=
  (.node (.node (.node (.node (.node (.node (.node (.node .leaf 0xf920 [0x9e1e] .leaf) 0xf921
  [0x5d50] .leaf) 0xf922 [0x6feb] (.node .leaf 0xf923 [0x85cd] .leaf)) 0xf924 [0x8964] (.node
  (.node .leaf 0xf925 [0x62c9] .leaf) 0xf926 [0x81d8] (.node .leaf 0xf927 [0x881f] .leaf))) 0xf928
  [0x5eca] (.node (.node (.node .leaf 0xf929 [0x6717] .leaf) 0xf92a [0x6d6a] (.node .leaf 0xf92b
  [0x72fc] .leaf)) 0xf92c [0x90ce] (.node (.node .leaf 0xf92d [0x4f86] .leaf) 0xf92e [0x51b7]
  (.node .leaf 0xf92f [0x52de] .leaf)))) 0xf930 [0x64c4] (.node (.node (.node (.node .leaf 0xf931
  [0x6ad3] .leaf) 0xf932 [0x7210] (.node .leaf 0xf933 [0x76e7] .leaf)) 0xf934 [0x8001] (.node
  (.node .leaf 0xf935 [0x8606] .leaf) 0xf936 [0x865c] (.node .leaf 0xf937 [0x8def] .leaf))) 0xf938
  [0x9732] (.node (.node (.node .leaf 0xf939 [0x9b6f] .leaf) 0xf93a [0x9dfa] (.node .leaf 0xf93b
  [0x788c] .leaf)) 0xf93c [0x797f] (.node (.node .leaf 0xf93d [0x7da0] .leaf) 0xf93e [0x83c9]
  (.node .leaf 0xf93f [0x9304] .leaf))))) 0xf940 [0x9e7f] (.node (.node (.node (.node (.node .leaf
  0xf941 [0x8ad6] .leaf) 0xf942 [0x58df] (.node .leaf 0xf943 [0x5f04] .leaf)) 0xf944 [0x7c60]
  (.node (.node .leaf 0xf945 [0x807e] .leaf) 0xf946 [0x7262] (.node .leaf 0xf947 [0x78ca] .leaf)))
  0xf948 [0x8cc2] (.node (.node (.node .leaf 0xf949 [0x96f7] .leaf) 0xf94a [0x58d8] (.node .leaf
  0xf94b [0x5c62] .leaf)) 0xf94c [0x6a13] (.node (.node .leaf 0xf94d [0x6dda] .leaf) 0xf94e
  [0x6f0f] (.node .leaf 0xf94f [0x7d2f] .leaf)))) 0xf950 [0x7e37] (.node (.node (.node (.node
  .leaf 0xf951 [0x964b] .leaf) 0xf952 [0x52d2] (.node .leaf 0xf953 [0x808b] .leaf)) 0xf954
  [0x51dc] (.node (.node .leaf 0xf955 [0x51cc] .leaf) 0xf956 [0x7a1c] (.node .leaf 0xf957 [0x7dbe]
  .leaf))) 0xf958 [0x83f1] (.node (.node (.node .leaf 0xf959 [0x9675] .leaf) 0xf95a [0x8b80]
  (.node .leaf 0xf95b [0x62cf] .leaf)) 0xf95c [0x6a02] (.node (.node .leaf 0xf95d [0x8afe] .leaf)
  0xf95e [0x4e39] (.node .leaf 0xf95f [0x5be7] .leaf)))))) 0xf960 [0x6012] (.node (.node (.node
  (.node (.node (.node .leaf 0xf961 [0x7387] .leaf) 0xf962 [0x7570] (.node .leaf 0xf963 [0x5317]
  .leaf)) 0xf964 [0x78fb] (.node (.node .leaf 0xf965 [0x4fbf] .leaf) 0xf966 [0x5fa9] (.node .leaf
  0xf967 [0x4e0d] .leaf))) 0xf968 [0x6ccc] (.node (.node (.node .leaf 0xf969 [0x6578] .leaf)
  0xf96a [0x7d22] (.node .leaf 0xf96b [0x53c3] .leaf)) 0xf96c [0x585e] (.node (.node .leaf 0xf96d
  [0x7701] .leaf) 0xf96e [0x8449] (.node .leaf 0xf96f [0x8aaa] .leaf)))) 0xf970 [0x6bba] (.node
  (.node (.node (.node .leaf 0xf971 [0x8fb0] .leaf) 0xf972 [0x6c88] (.node .leaf 0xf973 [0x62fe]
  .leaf)) 0xf974 [0x82e5] (.node (.node .leaf 0xf975 [0x63a0] .leaf) 0xf976 [0x7565] (.node .leaf
  0xf977 [0x4eae] .leaf))) 0xf978 [0x5169] (.node (.node (.node .leaf 0xf979 [0x51c9] .leaf)
  0xf97a [0x6881] (.node .leaf 0xf97b [0x7ce7] .leaf)) 0xf97c [0x826f] (.node (.node .leaf 0xf97d
  [0x8ad2] .leaf) 0xf97e [0x91cf] (.node .leaf 0xf97f [0x52f5] .leaf))))) 0xf980 [0x5442] (.node
  (.node (.node (.node (.node .leaf 0xf981 [0x5973] .leaf) 0xf982 [0x5eec] (.node .leaf 0xf983
  [0x65c5] .leaf)) 0xf984 [0x6ffe] (.node (.node .leaf 0xf985 [0x792a] .leaf) 0xf986 [0x95ad]
  (.node .leaf 0xf987 [0x9a6a] .leaf))) 0xf988 [0x9e97] (.node (.node (.node .leaf 0xf989 [0x9ece]
  .leaf) 0xf98a [0x529b] (.node .leaf 0xf98b [0x66c6] .leaf)) 0xf98c [0x6b77] (.node (.node .leaf
  0xf98d [0x8f62] .leaf) 0xf98e [0x5e74] (.node .leaf 0xf98f [0x6190] .leaf)))) 0xf990 [0x6200]
  (.node (.node (.node (.node .leaf 0xf991 [0x649a] .leaf) 0xf992 [0x6f23] (.node .leaf 0xf993
  [0x7149] .leaf)) 0xf994 [0x7489] (.node (.node .leaf 0xf995 [0x79ca] .leaf) 0xf996 [0x7df4]
  (.node .leaf 0xf997 [0x806f] .leaf))) 0xf998 [0x8f26] (.node (.node (.node .leaf 0xf999 [0x84ee]
  .leaf) 0xf99a [0x9023] (.node .leaf 0xf99b [0x934a] .leaf)) 0xf99c [0x5217] (.node (.node .leaf
  0xf99d [0x52a3] .leaf) 0xf99e [0x54bd] (.node .leaf 0xf99f [0x70c8] .leaf)))))))

def decompTree_9 : Tree (List Nat) :=
  (.node (.node (.node (.node (.node (.node (.node (.node .leaf 0xf9a1 [0x8aaa] .leaf) 0xf9a2
  [0x5ec9] .leaf) 0xf9a3 [0x5ff5] (.node .leaf 0xf9a4 [0x637b] .leaf)) 0xf9a5 [0x6bae] (.node
  (.node .leaf 0xf9a6 [0x7c3e] .leaf) 0xf9a7 [0x7375] (.node .leaf 0xf9a8 [0x4ee4] .leaf))) 0xf9a9
  [0x56f9] (.node (.node (.node .leaf 0xf9aa [0x5be7] .leaf) 0xf9ab [0x5dba] (.node .leaf 0xf9ac
  [0x601c] .leaf)) 0xf9ad [0x73b2] (.node (.node .leaf 0xf9ae [0x7469] .leaf) 0xf9af [0x7f9a]
  (.node .leaf 0xf9b0 [0x8046] .leaf)))) 0xf9b1 [0x9234] (.node (.node (.node (.node .leaf 0xf9b2
  [0x96f6] .leaf) 0xf9b3 [0x9748] (.node .leaf 0xf9b4 [0x9818] .leaf)) 0xf9b5 [0x4f8b] (.node
  (.node .leaf 0xf9b6 [0x79ae] .leaf) 0xf9b7 [0x91b4] (.node .leaf 0xf9b8 [0x96b8] .leaf))) 0xf9b9
  [0x60e1] (.node (.node (.node .leaf 0xf9ba [0x4e86] .leaf) 0xf9bb [0x50da] (.node .leaf 0xf9bc
  [0x5bee] .leaf)) 0xf9bd [0x5c3f] (.node (.node .leaf 0xf9be [0x6599] .leaf) 0xf9bf [0x6a02]
  (.node .leaf 0xf9c0 [0x71ce] .leaf))))) 0xf9c1 [0x7642] (.node (.node (.node (.node (.node .leaf
  0xf9c2 [0x84fc] .leaf) 0xf9c3 [0x907c] (.node .leaf 0xf9c4 [0x9f8d] .leaf)) 0xf9c5 [0x6688]
  (.node (.node .leaf 0xf9c6 [0x962e] .leaf) 0xf9c7 [0x5289] (.node .leaf 0xf9c8 [0x677b] .leaf)))
  0xf9c9 [0x67f3] (.node (.node (.node .leaf 0xf9ca [0x6d41] .leaf) 0xf9cb [0x6e9c] (.node .leaf
  0xf9cc [0x7409] .leaf)) 0xf9cd [0x7559] (.node (.node .leaf 0xf9ce [0x786b] .leaf) 0xf9cf
  [0x7d10] (.node .leaf 0xf9d0 [0x985e] .leaf)))) 0xf9d1 [0x516d] (.node (.node (.node (.node
  .leaf 0xf9d2 [0x622e] .leaf) 0xf9d3 [0x9678] (.node .leaf 0xf9d4 [0x502b] .leaf)) 0xf9d5
  [0x5d19] (.node (.node .leaf 0xf9d6 [0x6dea] .leaf) 0xf9d7 [0x8f2a] (.node .leaf 0xf9d8 [0x5f8b]
  .leaf))) 0xf9d9 [0x6144] (.node (.node (.node .leaf 0xf9da [0x6817] .leaf) 0xf9db [0x7387]
  (.node .leaf 0xf9dc [0x9686] .leaf)) 0xf9dd [0x5229] (.node (.node .leaf 0xf9de [0x540f] .leaf)
  0xf9df [0x5c65] (.node .leaf 0xf9e0 [0x6613] .leaf)))))) 0xf9e1 [0x674e] (.node (.node (.node
  (.node (.node (.node .leaf 0xf9e2 [0x68a8] .leaf) 0xf9e3 [0x6ce5] (.node .leaf 0xf9e4 [0x7406]
  .leaf)) 0xf9e5 [0x75e2] (.node (.node .leaf 0xf9e6 [0x7f79] .leaf) 0xf9e7 [0x88cf] (.node .leaf
  0xf9e8 [0x88e1] .leaf))) 0xf9e9 [0x91cc] (.node (.node (.node .leaf 0xf9ea [0x96e2] .leaf)
  0xf9eb [0x533f] (.node .leaf 0xf9ec [0x6eba] .leaf)) 0xf9ed [0x541d] (.node (.node .leaf 0xf9ee
  [0x71d0] .leaf) 0xf9ef [0x7498] (.node .leaf 0xf9f0 [0x85fa] .leaf)))) 0xf9f1 [0x96a3] (.node
  (.node (.node (.node .leaf 0xf9f2 [0x9c57] .leaf) 0xf9f3 [0x9e9f] (.node .leaf 0xf9f4 [0x6797]
  .leaf)) 0xf9f5 [0x6dcb] (.node (.node .leaf 0xf9f6 [0x81e8] .leaf) 0xf9f7 [0x7acb] (.node .leaf
  0xf9f8 [0x7b20] .leaf))) 0xf9f9 [0x7c92] (.node (.node (.node .leaf 0xf9fa [0x72c0] .leaf)
  0xf9fb [0x7099] (.node .leaf 0xf9fc [0x8b58] .leaf)) 0xf9fd [0x4ec0] (.node (.node .leaf 0xf9fe
  [0x8336] .leaf) 0xf9ff [0x523a] (.node .leaf 0xfa00 [0x5207] .leaf))))) 0xfa01 [0x5ea6] (.node
  (.node (.node (.node (.node .leaf 0xfa02 [0x62d3] .leaf) 0xfa03 [0x7cd6] (.node .leaf 0xfa04
  [0x5b85] .leaf)) 0xfa05 [0x6d1e] (.node (.node .leaf 0xfa06 [0x66b4] .leaf) 0xfa07 [0x8f3b]
  (.node .leaf 0xfa08 [0x884c] .leaf))) 0xfa09 [0x964d] (.node (.node (.node .leaf 0xfa0a [0x898b]
  .leaf) 0xfa0b [0x5ed3] (.node .leaf 0xfa0c [0x5140] .leaf)) 0xfa0d [0x55c0] (.node (.node .leaf
  0xfa10 [0x585a] .leaf) 0xfa12 [0x6674] (.node .leaf 0xfa15 [0x51de] .leaf)))) 0xfa16 [0x732a]
  (.node (.node (.node (.node .leaf 0xfa17 [0x76ca] .leaf) 0xfa18 [0x793c] (.node .leaf 0xfa19
  [0x795e] .leaf)) 0xfa1a [0x7965] (.node (.node .leaf 0xfa1b [0x798f] .leaf) 0xfa1c [0x9756]
  (.node .leaf 0xfa1d [0x7cbe] .leaf))) 0xfa1e [0x7fbd] (.node (.node (.node .leaf 0xfa20 [0x8612]
  .leaf) 0xfa22 [0x8af8] (.node .leaf 0xfa25 [0x9038] .leaf)) 0xfa26 [0x90fd] (.node (.node .leaf
  0xfa2a [0x98ef] .leaf) 0xfa2b [0x98fc] (.node .leaf 0xfa2c [0x9928] .leaf)))))))

def decompTree_10 : Tree (List Nat) :=
  (.node (.node (.node (.node (.node (.node (.node (.node .leaf 0xfa2e [0x90de] .leaf) 0xfa2f
  [0x96b7] .leaf) 0xfa30 [0x4fae] (.node .leaf 0xfa31 [0x50e7] .leaf)) 0xfa32 [0x514d] (.node
  (.node .leaf 0xfa33 [0x52c9] .leaf) 0xfa34 [0x52e4] (.node .leaf 0xfa35 [0x5351] .leaf))) 0xfa36
  [0x559d] (.node (.node (.node .leaf 0xfa37 [0x5606] .leaf) 0xfa38 [0x5668] (.node .leaf 0xfa39
  [0x5840] .leaf)) 0xfa3a [0x58a8] (.node (.node .leaf 0xfa3b [0x5c64] .leaf) 0xfa3c [0x5c6e]
  (.node .leaf 0xfa3d [0x6094] .leaf)))) 0xfa3e [0x6168] (.node (.node (.node (.node .leaf 0xfa3f
  [0x618e] .leaf) 0xfa40 [0x61f2] (.node .leaf 0xfa41 [0x654f] .leaf)) 0xfa42 [0x65e2] (.node
  (.node .leaf 0xfa43 [0x6691] .leaf) 0xfa44 [0x6885] (.node .leaf 0xfa45 [0x6d77] .leaf))) 0xfa46
  [0x6e1a] (.node (.node (.node .leaf 0xfa47 [0x6f22] .leaf) 0xfa48 [0x716e] (.node .leaf 0xfa49
  [0x722b] .leaf)) 0xfa4a [0x7422] (.node (.node .leaf 0xfa4b [0x7891] .leaf) 0xfa4c [0x793e]
  (.node .leaf 0xfa4d [0x7949] .leaf))))) 0xfa4e [0x7948] (.node (.node (.node (.node (.node .leaf
  0xfa4f [0x7950] .leaf) 0xfa50 [0x7956] (.node .leaf 0xfa51 [0x795d] .leaf)) 0xfa52 [0x798d]
  (.node (.node .leaf 0xfa53 [0x798e] .leaf) 0xfa54 [0x7a40] (.node .leaf 0xfa55 [0x7a81] .leaf)))
  0xfa56 [0x7bc0] (.node (.node (.node .leaf 0xfa57 [0x7df4] .leaf) 0xfa58 [0x7e09] (.node .leaf
  0xfa59 [0x7e41] .leaf)) 0xfa5a [0x7f72] (.node (.node .leaf 0xfa5b [0x8005] .leaf) 0xfa5c
  [0x81ed] (.node .leaf 0xfa5d [0x8279] .leaf)))) 0xfa5e [0x8279] (.node (.node (.node (.node
  .leaf 0xfa5f [0x8457] .leaf) 0xfa60 [0x8910] (.node .leaf 0xfa61 [0x8996] .leaf)) 0xfa62
  [0x8b01] (.node (.node .leaf 0xfa63 [0x8b39] .leaf) 0xfa64 [0x8cd3] (.node .leaf 0xfa65 [0x8d08]
  .leaf))) 0xfa66 [0x8fb6] (.node (.node (.node .leaf 0xfa67 [0x9038] .leaf) 0xfa68 [0x96e3]
  (.node .leaf 0xfa69 [0x97ff] .leaf)) 0xfa6a [0x983b] (.node (.node .leaf 0xfa6b [0x6075] .leaf)
  0xfa6c [0x242ee] (.node .leaf 0xfa6d [0x8218] .leaf)))))) 0xfa70 [0x4e26] (.node (.node (.node
  (.node (.node (.node .leaf 0xfa71 [0x51b5] .leaf) 0xfa72 [0x5168] (.node .leaf 0xfa73 [0x4f80]
  .leaf)) 0xfa74 [0x5145] (.node (.node .leaf 0xfa75 [0x5180] .leaf) 0xfa76 [0x52c7] (.node .leaf
  0xfa77 [0x52fa] .leaf))) 0xfa78 [0x559d] (.node (.node (.node .leaf 0xfa79 [0x5555] .leaf)
  0xfa7a [0x5599] (.node .leaf 0xfa7b [0x55e2] .leaf)) 0xfa7c [0x585a] (.node (.node .leaf 0xfa7d
  [0x58b3] .leaf) 0xfa7e [0x5944] (.node .leaf 0xfa7f [0x5954] .leaf)))) 0xfa80 [0x5a62] (.node
  (.node (.node (.node .leaf 0xfa81 [0x5b28] .leaf) 0xfa82 [0x5ed2] (.node .leaf 0xfa83 [0x5ed9]
  .leaf)) 0xfa84 [0x5f69] (.node (.node .leaf 0xfa85 [0x5fad] .leaf) 0xfa86 [0x60d8] (.node .leaf
  0xfa87 [0x614e] .leaf))) 0xfa88 [0x6108] (.node (.node (.node .leaf 0xfa89 [0x618e] .leaf)
  0xfa8a [0x6160] (.node .leaf 0xfa8b [0x61f2] .leaf)) 0xfa8c [0x6234] (.node (.node .leaf 0xfa8d
  [0x63c4] .leaf) 0xfa8e [0x641c] (.node .leaf 0xfa8f [0x6452] .leaf))))) 0xfa90 [0x6556] (.node
  (.node (.node (.node (.node .leaf 0xfa91 [0x6674] .leaf) 0xfa92 [0x6717] (.node .leaf 0xfa93
  [0x671b] .leaf)) 0xfa94 [0x6756] (.node (.node .leaf 0xfa95 [0x6b79] .leaf) 0xfa96 [0x6bba]
  (.node .leaf 0xfa97 [0x6d41] .leaf))) 0xfa98 [0x6edb] (.node (.node (.node .leaf 0xfa99 [0x6ecb]
  .leaf) 0xfa9a [0x6f22] (.node .leaf 0xfa9b [0x701e] .leaf)) 0xfa9c [0x716e] (.node (.node .leaf
  0xfa9d [0x77a7] .leaf) 0xfa9e [0x7235] (.node .leaf 0xfa9f [0x72af] .leaf)))) 0xfaa0 [0x732a]
  (.node (.node (.node (.node .leaf 0xfaa1 [0x7471] .leaf) 0xfaa2 [0x7506] (.node .leaf 0xfaa3
  [0x753b] .leaf)) 0xfaa4 [0x761d] (.node (.node .leaf 0xfaa5 [0x761f] .leaf) 0xfaa6 [0x76ca]
  (.node .leaf 0xfaa7 [0x76db] .leaf))) 0xfaa8 [0x76f4] (.node (.node (.node .leaf 0xfaa9 [0x774a]
  .leaf) 0xfaaa [0x7740] (.node .leaf 0xfaab [0x78cc] .leaf)) 0xfaac [0x7ab1] (.node (.node .leaf
  0xfaad [0x7bc0] .leaf) 0xfaae [0x7c7b] (.node .leaf 0xfaaf [0x7d5b] .leaf)))))))

def decompTree_11 : Tree (List Nat) :=
  (.node (.node (.node (.node (.node (.node (.node (.node .leaf 0xfab1 [0x7f3e] .leaf) 0xfab2
  [0x8005] .leaf) 0xfab3 [0x8352] (.node .leaf 0xfab4 [0x83ef] .leaf)) 0xfab5 [0x8779] (.node
  (.node .leaf 0xfab6 [0x8941] .leaf) 0xfab7 [0x8986] (.node .leaf 0xfab8 [0x8996] .leaf))) 0xfab9
  [0x8abf] (.node (.node (.node .leaf 0xfaba [0x8af8] .leaf) 0xfabb [0x8acb] (.node .leaf 0xfabc
  [0x8b01] .leaf)) 0xfabd [0x8afe] (.node (.node .leaf 0xfabe [0x8aed] .leaf) 0xfabf [0x8b39]
  (.node .leaf 0xfac0 [0x8b8a] .leaf)))) 0xfac1 [0x8d08] (.node (.node (.node (.node .leaf 0xfac2
  [0x8f38] .leaf) 0xfac3 [0x9072] (.node .leaf 0xfac4 [0x9199] .leaf)) 0xfac5 [0x9276] (.node
  (.node .leaf 0xfac6 [0x967c] .leaf) 0xfac7 [0x96e3] (.node .leaf 0xfac8 [0x9756] .leaf))) 0xfac9
  [0x97db] (.node (.node (.node .leaf 0xfaca [0x97ff] .leaf) 0xfacb [0x980b] (.node .leaf 0xfacc
  [0x983b] .leaf)) 0xfacd [0x9b12] (.node (.node .leaf 0xface [0x9f9c] .leaf) 0xfacf [0x2284a]
  (.node .leaf 0xfad0 [0x22844] .leaf))))) 0xfad1 [0x233d5] (.node (.node (.node (.node (.node
  .leaf 0xfad2 [0x3b9d] .leaf) 0xfad3 [0x4018] (.node .leaf 0xfad4 [0x4039] .leaf)) 0xfad5
  [0x25249] (.node (.node .leaf 0xfad6 [0x25cd0] .leaf) 0xfad7 [0x27ed3] (.node .leaf 0xfad8
  [0x9f43] .leaf))) 0xfad9 [0x9f8e] (.node (.node (.node .leaf 0xfb1d [0x5d9, 0x5b4] .leaf) 0xfb1f
  [0x5f2, 0x5b7] (.node .leaf 0xfb2a [0x5e9, 0x5c1] .leaf)) 0xfb2b [0x5e9, 0x5c2] (.node (.node
  .leaf 0xfb2c [0x5e9, 0x5bc, 0x5c1] .leaf) 0xfb2d [0x5e9, 0x5bc, 0x5c2] (.node .leaf 0xfb2e
  [0x5d0, 0x5b7] .leaf)))) 0xfb2f [0x5d0, 0x5b8] (.node (.node (.node (.node .leaf 0xfb30 [0x5d0,
  0x5bc] .leaf) 0xfb31 [0x5d1, 0x5bc] (.node .leaf 0xfb32 [0x5d2, 0x5bc] .leaf)) 0xfb33 [0x5d3,
  0x5bc] (.node (.node .leaf 0xfb34 [0x5d4, 0x5bc] .leaf) 0xfb35 [0x5d5, 0x5bc] (.node .leaf
  0xfb36 [0x5d6, 0x5bc] .leaf))) 0xfb38 [0x5d8, 0x5bc] (.node (.node (.node .leaf 0xfb39 [0x5d9,
  0x5bc] .leaf) 0xfb3a [0x5da, 0x5bc] (.node .leaf 0xfb3b [0x5db, 0x5bc] .leaf)) 0xfb3c [0x5dc,
  0x5bc] (.node (.node .leaf 0xfb3e [0x5de, 0x5bc] .leaf) 0xfb40 [0x5e0, 0x5bc] (.node .leaf
  0xfb41 [0x5e1, 0x5bc] .leaf)))))) 0xfb43 [0x5e3, 0x5bc] (.node (.node (.node (.node (.node
  (.node .leaf 0xfb44 [0x5e4, 0x5bc] .leaf) 0xfb46 [0x5e6, 0x5bc] (.node .leaf 0xfb47 [0x5e7,
  0x5bc] .leaf)) 0xfb48 [0x5e8, 0x5bc] (.node (.node .leaf 0xfb49 [0x5e9, 0x5bc] .leaf) 0xfb4a
  [0x5ea, 0x5bc] (.node .leaf 0xfb4b [0x5d5, 0x5b9] .leaf))) 0xfb4c [0x5d1, 0x5bf] (.node (.node
  (.node .leaf 0xfb4d [0x5db, 0x5bf] .leaf) 0xfb4e [0x5e4, 0x5bf] (.node .leaf 0x1109a [0x11099,
  0x110ba] .leaf)) 0x1109c [0x1109b, 0x110ba] (.node (.node .leaf 0x110ab [0x110a5, 0x110ba]
  .leaf) 0x1112e [0x11131, 0x11127] (.node .leaf 0x1112f [0x11132, 0x11127] .leaf)))) 0x1134b
  [0x11347, 0x1133e] (.node (.node (.node (.node .leaf 0x1134c [0x11347, 0x11357] .leaf) 0x114bb
  [0x114b9, 0x114ba] (.node .leaf 0x114bc [0x114b9, 0x114b0] .leaf)) 0x114be [0x114b9, 0x114bd]
  (.node (.node .leaf 0x115ba [0x115b8, 0x115af] .leaf) 0x115bb [0x115b9, 0x115af] (.node .leaf
  0x11938 [0x11935, 0x11930] .leaf))) 0x1d15e [0x1d157, 0x1d165] (.node (.node (.node .leaf
  0x1d15f [0x1d158, 0x1d165] .leaf) 0x1d160 [0x1d158, 0x1d165, 0x1d16e] (.node .leaf 0x1d161
  [0x1d158, 0x1d165, 0x1d16f] .leaf)) 0x1d162 [0x1d158, 0x1d165, 0x1d170] (.node (.node .leaf
  0x1d163 [0x1d158, 0x1d165, 0x1d171] .leaf) 0x1d164 [0x1d158, 0x1d165, 0x1d172] (.node .leaf
  0x1d1bb [0x1d1b9, 0x1d165] .leaf))))) 0x1d1bc [0x1d1ba, 0x1d165] (.node (.node (.node (.node
  (.node .leaf 0x1d1bd [0x1d1b9, 0x1d165, 0x1d16e] .leaf) 0x1d1be [0x1d1ba, 0x1d165, 0x1d16e]
  (.node .leaf 0x1d1bf [0x1d1b9, 0x1d165, 0x1d16f] .leaf)) 0x1d1c0 [0x1d1ba, 0x1d165, 0x1d16f]
  (.node (.node .leaf 0x2f800 [0x4e3d] .leaf) 0x2f801 [0x4e38] (.node .leaf 0x2f802 [0x4e41]
  .leaf))) 0x2f803 [0x20122] (.node (.node (.node .leaf 0x2f804 [0x4f60] .leaf) 0x2f805 [0x4fae]
  (.node .leaf 0x2f806 [0x4fbb] .leaf)) 0x2f807 [0x5002] (.node (.node .leaf 0x2f808 [0x507a]
  .leaf) 0x2f809 [0x5099] (.node .leaf 0x2f80a [0x50e7] .leaf)))) 0x2f80b [0x50cf] (.node (.node
  (.node (.node .leaf 0x2f80c [0x349e] .leaf) 0x2f80d [0x2063a] (.node .leaf 0x2f80e [0x514d]
  .leaf)) 0x2f80f [0x5154] (.node (.node .leaf 0x2f810 [0x5164] .leaf) 0x2f811 [0x5177] (.node
  .leaf 0x2f812 [0x2051c] .leaf))) 0x2f813 [0x34b9] (.node (.node (.node .leaf 0x2f814 [0x5167]
  .leaf) 0x2f815 [0x518d] (.node .leaf 0x2f816 [0x2054b] .leaf)) 0x2f817 [0x5197] (.node (.node
  .leaf 0x2f818 [0x51a4] .leaf) 0x2f819 [0x4ecc] (.node .leaf 0x2f81a [0x51ac] .leaf)))))))

def decompTree_12 : Tree (List Nat) :=
  (.node (.node (.node (.node (.node (.node (.node (.node .leaf 0x2f81c [0x291df] .leaf) 0x2f81d
  [0x51f5] .leaf) 0x2f81e [0x5203] (.node .leaf 0x2f81f [0x34df] .leaf)) 0x2f820 [0x523b] (.node
  (.node .leaf 0x2f821 [0x5246] .leaf) 0x2f822 [0x5272] (.node .leaf 0x2f823 [0x5277] .leaf)))
  0x2f824 [0x3515] (.node (.node (.node .leaf 0x2f825 [0x52c7] .leaf) 0x2f826 [0x52c9] (.node
  .leaf 0x2f827 [0x52e4] .leaf)) 0x2f828 [0x52fa] (.node (.node .leaf 0x2f829 [0x5305] .leaf)
  0x2f82a [0x5306] (.node .leaf 0x2f82b [0x5317] .leaf)))) 0x2f82c [0x5349] (.node (.node (.node
  (.node .leaf 0x2f82d [0x5351] .leaf) 0x2f82e [0x535a] (.node .leaf 0x2f82f [0x5373] .leaf))
  0x2f830 [0x537d] (.node (.node .leaf 0x2f831 [0x537f] .leaf) 0x2f832 [0x537f] (.node .leaf
  0x2f833 [0x537f] .leaf))) 0x2f834 [0x20a2c] (.node (.node (.node .leaf 0x2f835 [0x7070] .leaf)
  0x2f836 [0x53ca] (.node .leaf 0x2f837 [0x53df] .leaf)) 0x2f838 [0x20b63] (.node (.node .leaf
  0x2f839 [0x53eb] .leaf) 0x2f83a [0x53f1] (.node .leaf 0x2f83b [0x5406] .leaf))))) 0x2f83c
  [0x549e] (.node (.node (.node (.node (.node .leaf 0x2f83d [0x5438] .leaf) 0x2f83e [0x5448]
  (.node .leaf 0x2f83f [0x5468] .leaf)) 0x2f840 [0x54a2] (.node (.node .leaf 0x2f841 [0x54f6]
  .leaf) 0x2f842 [0x5510] (.node .leaf 0x2f843 [0x5553] .leaf))) 0x2f844 [0x5563] (.node (.node
  (.node .leaf 0x2f845 [0x5584] .leaf) 0x2f846 [0x5584] (.node .leaf 0x2f847 [0x5599] .leaf))
  0x2f848 [0x55ab] (.node (.node .leaf 0x2f849 [0x55b3] .leaf) 0x2f84a [0x55c2] (.node .leaf
  0x2f84b [0x5716] .leaf)))) 0x2f84c [0x5606] (.node (.node (.node (.node .leaf 0x2f84d [0x5717]
  .leaf) 0x2f84e [0x5651] (.node .leaf 0x2f84f [0x5674] .leaf)) 0x2f850 [0x5207] (.node (.node
  .leaf 0x2f851 [0x58ee] .leaf) 0x2f852 [0x57ce] (.node .leaf 0x2f853 [0x57f4] .leaf))) 0x2f854
  [0x580d] (.node (.node (.node .leaf 0x2f855 [0x578b] .leaf) 0x2f856 [0x5832] (.node .leaf
  0x2f857 [0x5831] .leaf)) 0x2f858 [0x58ac] (.node (.node .leaf 0x2f859 [0x214e4] .leaf) 0x2f85a
  [0x58f2] (.node .leaf 0x2f85b [0x58f7] .leaf)))))) 0x2f85c [0x5906] (.node (.node (.node (.node
  (.node (.node .leaf 0x2f85d [0x591a] .leaf) 0x2f85e [0x5922] (.node .leaf 0x2f85f [0x5962]
  .leaf)) 0x2f860 [0x216a8] (.node (.node .leaf 0x2f861 [0x216ea] .leaf) 0x2f862 [0x59ec] (.node
  .leaf 0x2f863 [0x5a1b] .leaf))) 0x2f864 [0x5a27] (.node (.node (.node .leaf 0x2f865 [0x59d8]
  .leaf) 0x2f866 [0x5a66] (.node .leaf 0x2f867 [0x36ee] .leaf)) 0x2f868 [0x36fc] (.node (.node
  .leaf 0x2f869 [0x5b08] .leaf) 0x2f86a [0x5b3e] (.node .leaf 0x2f86b [0x5b3e] .leaf)))) 0x2f86c
  [0x219c8] (.node (.node (.node (.node .leaf 0x2f86d [0x5bc3] .leaf) 0x2f86e [0x5bd8] (.node
  .leaf 0x2f86f [0x5be7] .leaf)) 0x2f870 [0x5bf3] (.node (.node .leaf 0x2f871 [0x21b18] .leaf)
  0x2f872 [0x5bff] (.node .leaf 0x2f873 [0x5c06] .leaf))) 0x2f874 [0x5f53] (.node (.node (.node
  .leaf 0x2f875 [0x5c22] .leaf) 0x2f876 [0x3781] (.node .leaf 0x2f877 [0x5c60] .leaf)) 0x2f878
  [0x5c6e] (.node (.node .leaf 0x2f879 [0x5cc0] .leaf) 0x2f87a [0x5c8d] (.node .leaf 0x2f87b
  [0x21de4] .leaf))))) 0x2f87c [0x5d43] (.node (.node (.node (.node (.node .leaf 0x2f87d [0x21de6]
  .leaf) 0x2f87e [0x5d6e] (.node .leaf 0x2f87f [0x5d6b] .leaf)) 0x2f880 [0x5d7c] (.node (.node
  .leaf 0x2f881 [0x5de1] .leaf) 0x2f882 [0x5de2] (.node .leaf 0x2f883 [0x382f] .leaf))) 0x2f884
  [0x5dfd] (.node (.node (.node .leaf 0x2f885 [0x5e28] .leaf) 0x2f886 [0x5e3d] (.node .leaf
  0x2f887 [0x5e69] .leaf)) 0x2f888 [0x3862] (.node (.node .leaf 0x2f889 [0x22183] .leaf) 0x2f88a
  [0x387c] (.node .leaf 0x2f88b [0x5eb0] .leaf)))) 0x2f88c [0x5eb3] (.node (.node (.node (.node
  .leaf 0x2f88d [0x5eb6] .leaf) 0x2f88e [0x5eca] (.node .leaf 0x2f88f [0x2a392] .leaf)) 0x2f890
  [0x5efe] (.node (.node .leaf 0x2f891 [0x22331] .leaf) 0x2f892 [0x22331] (.node .leaf 0x2f893
  [0x8201] .leaf))) 0x2f894 [0x5f22] (.node (.node (.node .leaf 0x2f895 [0x5f22] .leaf) 0x2f896
  [0x38c7] (.node .leaf 0x2f897 [0x232b8] .leaf)) 0x2f898 [0x261da] (.node (.node .leaf 0x2f899
  [0x5f62] .leaf) 0x2f89a [0x5f6b] (.node .leaf 0x2f89b [0x38e3] .leaf)))))))

def decompTree_13 : Tree (List Nat) :=
  (.node (.node (.node (.node (.node (.node (.node (.node .leaf 0x2f89d [0x5fcd] .leaf) 0x2f89e
  [0x5fd7] .leaf) 0x2f89f [0x5ff9] (.node .leaf 0x2f8a0 [0x6081] .leaf)) 0x2f8a1 [0x393a] (.node
  (.node .leaf 0x2f8a2 [0x391c] .leaf) 0x2f8a3 [0x6094] (.node .leaf 0x2f8a4 [0x226d4] .leaf)))
  0x2f8a5 [0x60c7] (.node (.node (.node .leaf 0x2f8a6 [0x6148] .leaf) 0x2f8a7 [0x614c] (.node
  .leaf 0x2f8a8 [0x614e] .leaf)) 0x2f8a9 [0x614c] (.node (.node .leaf 0x2f8aa [0x617a] .leaf)
  0x2f8ab [0x618e] (.node .leaf 0x2f8ac [0x61b2] .leaf)))) 0x2f8ad [0x61a4] (.node (.node (.node
  (.node .leaf 0x2f8ae [0x61af] .leaf) 0x2f8af [0x61de] (.node .leaf 0x2f8b0 [0x61f2] .leaf))
  0x2f8b1 [0x61f6] (.node (.node .leaf 0x2f8b2 [0x6210] .leaf) 0x2f8b3 [0x621b] (.node .leaf
  0x2f8b4 [0x625d] .leaf))) 0x2f8b5 [0x62b1] (.node (.node (.node .leaf 0x2f8b6 [0x62d4] .leaf)
  0x2f8b7 [0x6350] (.node .leaf 0x2f8b8 [0x22b0c] .leaf)) 0x2f8b9 [0x633d] (.node (.node .leaf
  0x2f8ba [0x62fc] .leaf) 0x2f8bb [0x6368] (.node .leaf 0x2f8bc [0x6383] .leaf))))) 0x2f8bd
  [0x63e4] (.node (.node (.node (.node (.node .leaf 0x2f8be [0x22bf1] .leaf) 0x2f8bf [0x6422]
  (.node .leaf 0x2f8c0 [0x63c5] .leaf)) 0x2f8c1 [0x63a9] (.node (.node .leaf 0x2f8c2 [0x3a2e]
  .leaf) 0x2f8c3 [0x6469] (.node .leaf 0x2f8c4 [0x647e] .leaf))) 0x2f8c5 [0x649d] (.node (.node
  (.node .leaf 0x2f8c6 [0x6477] .leaf) 0x2f8c7 [0x3a6c] (.node .leaf 0x2f8c8 [0x654f] .leaf))
  0x2f8c9 [0x656c] (.node (.node .leaf 0x2f8ca [0x2300a] .leaf) 0x2f8cb [0x65e3] (.node .leaf
  0x2f8cc [0x66f8] .leaf)))) 0x2f8cd [0x6649] (.node (.node (.node (.node .leaf 0x2f8ce [0x3b19]
  .leaf) 0x2f8cf [0x6691] (.node .leaf 0x2f8d0 [0x3b08] .leaf)) 0x2f8d1 [0x3ae4] (.node (.node
  .leaf 0x2f8d2 [0x5192] .leaf) 0x2f8d3 [0x5195] (.node .leaf 0x2f8d4 [0x6700] .leaf))) 0x2f8d5
  [0x669c] (.node (.node (.node .leaf 0x2f8d6 [0x80ad] .leaf) 0x2f8d7 [0x43d9] (.node .leaf
  0x2f8d8 [0x6717] .leaf)) 0x2f8d9 [0x671b] (.node (.node .leaf 0x2f8da [0x6721] .leaf) 0x2f8db
  [0x675e] (.node .leaf 0x2f8dc [0x6753] .leaf)))))) 0x2f8dd [0x233c3] (.node (.node (.node (.node
  (.node (.node .leaf 0x2f8de [0x3b49] .leaf) 0x2f8df [0x67fa] (.node .leaf 0x2f8e0 [0x6785]
  .leaf)) 0x2f8e1 [0x6852] (.node (.node .leaf 0x2f8e2 [0x6885] .leaf) 0x2f8e3 [0x2346d] (.node
  .leaf 0x2f8e4 [0x688e] .leaf))) 0x2f8e5 [0x681f] (.node (.node (.node .leaf 0x2f8e6 [0x6914]
  .leaf) 0x2f8e7 [0x3b9d] (.node .leaf 0x2f8e8 [0x6942] .leaf)) 0x2f8e9 [0x69a3] (.node (.node
  .leaf 0x2f8ea [0x69ea] .leaf) 0x2f8eb [0x6aa8] (.node .leaf 0x2f8ec [0x236a3] .leaf)))) 0x2f8ed
  [0x6adb] (.node (.node (.node (.node .leaf 0x2f8ee [0x3c18] .leaf) 0x2f8ef [0x6b21] (.node .leaf
  0x2f8f0 [0x238a7] .leaf)) 0x2f8f1 [0x6b54] (.node (.node .leaf 0x2f8f2 [0x3c4e] .leaf) 0x2f8f3
  [0x6b72] (.node .leaf 0x2f8f4 [0x6b9f] .leaf))) 0x2f8f5 [0x6bba] (.node (.node (.node .leaf
  0x2f8f6 [0x6bbb] .leaf) 0x2f8f7 [0x23a8d] (.node .leaf 0x2f8f8 [0x21d0b] .leaf)) 0x2f8f9
  [0x23afa] (.node (.node .leaf 0x2f8fa [0x6c4e] .leaf) 0x2f8fb [0x23cbc] (.node .leaf 0x2f8fc
  [0x6cbf] .leaf))))) 0x2f8fd [0x6ccd] (.node (.node (.node (.node (.node .leaf 0x2f8fe [0x6c67]
  .leaf) 0x2f8ff [0x6d16] (.node .leaf 0x2f900 [0x6d3e] .leaf)) 0x2f901 [0x6d77] (.node (.node
  .leaf 0x2f902 [0x6d41] .leaf) 0x2f903 [0x6d69] (.node .leaf 0x2f904 [0x6d78] .leaf))) 0x2f905
  [0x6d85] (.node (.node (.node .leaf 0x2f906 [0x23d1e] .leaf) 0x2f907 [0x6d34] (.node .leaf
  0x2f908 [0x6e2f] .leaf)) 0x2f909 [0x6e6e] (.node (.node .leaf 0x2f90a [0x3d33] .leaf) 0x2f90b
  [0x6ecb] (.node .leaf 0x2f90c [0x6ec7] .leaf)))) 0x2f90d [0x23ed1] (.node (.node (.node (.node
  .leaf 0x2f90e [0x6df9] .leaf) 0x2f90f [0x6f6e] (.node .leaf 0x2f910 [0x23f5e] .leaf)) 0x2f911
  [0x23f8e] (.node (.node .leaf 0x2f912 [0x6fc6] .leaf) 0x2f913 [0x7039] (.node .leaf 0x2f914
  [0x701e] .leaf))) 0x2f915 [0x701b] (.node (.node (.node .leaf 0x2f916 [0x3d96] .leaf) 0x2f917
  [0x704a] (.node .leaf 0x2f918 [0x707d] .leaf)) 0x2f919 [0x7077] (.node (.node .leaf 0x2f91a
  [0x70ad] .leaf) 0x2f91b [0x20525] (.node .leaf 0x2f91c [0x7145] .leaf)))))))

def decompTree_14 : Tree (List Nat) :=
  (.node (.node (.node (.node (.node (.node (.node (.node .leaf 0x2f91e [0x719c] .leaf) 0x2f91f
  [0x243ab] .leaf) 0x2f920 [0x7228] (.node .leaf 0x2f921 [0x7235] .leaf)) 0x2f922 [0x7250] (.node
  (.node .leaf 0x2f923 [0x24608] .leaf) 0x2f924 [0x7280] (.node .leaf 0x2f925 [0x7295] .leaf)))
  0x2f926 [0x24735] (.node (.node (.node .leaf 0x2f927 [0x24814] .leaf) 0x2f928 [0x737a] (.node
  .leaf 0x2f929 [0x738b] .leaf)) 0x2f92a [0x3eac] (.node (.node .leaf 0x2f92b [0x73a5] .leaf)
  0x2f92c [0x3eb8] (.node .leaf 0x2f92d [0x3eb8] .leaf)))) 0x2f92e [0x7447] (.node (.node (.node
  (.node .leaf 0x2f92f [0x745c] .leaf) 0x2f930 [0x7471] (.node .leaf 0x2f931 [0x7485] .leaf))
  0x2f932 [0x74ca] (.node (.node .leaf 0x2f933 [0x3f1b] .leaf) 0x2f934 [0x7524] (.node .leaf
  0x2f935 [0x24c36] .leaf))) 0x2f936 [0x753e] (.node (.node (.node .leaf 0x2f937 [0x24c92] .leaf)
  0x2f938 [0x7570] (.node .leaf 0x2f939 [0x2219f] .leaf)) 0x2f93a [0x7610] (.node (.node .leaf
  0x2f93b [0x24fa1] .leaf) 0x2f93c [0x24fb8] (.node .leaf 0x2f93d [0x25044] .leaf))))) 0x2f93e
  [0x3ffc] (.node (.node (.node (.node (.node .leaf 0x2f93f [0x4008] .leaf) 0x2f940 [0x76f4]
  (.node .leaf 0x2f941 [0x250f3] .leaf)) 0x2f942 [0x250f2] (.node (.node .leaf 0x2f943 [0x25119]
  .leaf) 0x2f944 [0x25133] (.node .leaf 0x2f945 [0x771e] .leaf))) 0x2f946 [0x771f] (.node (.node
  (.node .leaf 0x2f947 [0x771f] .leaf) 0x2f948 [0x774a] (.node .leaf 0x2f949 [0x4039] .leaf))
  0x2f94a [0x778b] (.node (.node .leaf 0x2f94b [0x4046] .leaf) 0x2f94c [0x4096] (.node .leaf
  0x2f94d [0x2541d] .leaf)))) 0x2f94e [0x784e] (.node (.node (.node (.node .leaf 0x2f94f [0x788c]
  .leaf) 0x2f950 [0x78cc] (.node .leaf 0x2f951 [0x40e3] .leaf)) 0x2f952 [0x25626] (.node (.node
  .leaf 0x2f953 [0x7956] .leaf) 0x2f954 [0x2569a] (.node .leaf 0x2f955 [0x256c5] .leaf))) 0x2f956
  [0x798f] (.node (.node (.node .leaf 0x2f957 [0x79eb] .leaf) 0x2f958 [0x412f] (.node .leaf
  0x2f959 [0x7a40] .leaf)) 0x2f95a [0x7a4a] (.node (.node .leaf 0x2f95b [0x7a4f] .leaf) 0x2f95c
  [0x2597c] (.node .leaf 0x2f95d [0x25aa7] .leaf)))))) 0x2f95e [0x25aa7] (.node (.node (.node
  (.node (.node (.node .leaf 0x2f95f [0x7aee] .leaf) 0x2f960 [0x4202] (.node .leaf 0x2f961
  [0x25bab] .leaf)) 0x2f962 [0x7bc6] (.node (.node .leaf 0x2f963 [0x7bc9] .leaf) 0x2f964 [0x4227]
  (.node .leaf 0x2f965 [0x25c80] .leaf))) 0x2f966 [0x7cd2] (.node (.node (.node .leaf 0x2f967
  [0x42a0] .leaf) 0x2f968 [0x7ce8] (.node .leaf 0x2f969 [0x7ce3] .leaf)) 0x2f96a [0x7d00] (.node
  (.node .leaf 0x2f96b [0x25f86] .leaf) 0x2f96c [0x7d63] (.node .leaf 0x2f96d [0x4301] .leaf))))
  0x2f96e [0x7dc7] (.node (.node (.node (.node .leaf 0x2f96f [0x7e02] .leaf) 0x2f970 [0x7e45]
  (.node .leaf 0x2f971 [0x4334] .leaf)) 0x2f972 [0x26228] (.node (.node .leaf 0x2f973 [0x26247]
  .leaf) 0x2f974 [0x4359] (.node .leaf 0x2f975 [0x262d9] .leaf))) 0x2f976 [0x7f7a] (.node (.node
  (.node .leaf 0x2f977 [0x2633e] .leaf) 0x2f978 [0x7f95] (.node .leaf 0x2f979 [0x7ffa] .leaf))
  0x2f97a [0x8005] (.node (.node .leaf 0x2f97b [0x264da] .leaf) 0x2f97c [0x26523] (.node .leaf
  0x2f97d [0x8060] .leaf))))) 0x2f97e [0x265a8] (.node (.node (.node (.node (.node .leaf 0x2f97f
  [0x8070] .leaf) 0x2f980 [0x2335f] (.node .leaf 0x2f981 [0x43d5] .leaf)) 0x2f982 [0x80b2] (.node
  (.node .leaf 0x2f983 [0x8103] .leaf) 0x2f984 [0x440b] (.node .leaf 0x2f985 [0x813e] .leaf)))
  0x2f986 [0x5ab5] (.node (.node (.node .leaf 0x2f987 [0x267a7] .leaf) 0x2f988 [0x267b5] (.node
  .leaf 0x2f989 [0x23393] .leaf)) 0x2f98a [0x2339c] (.node (.node .leaf 0x2f98b [0x8201] .leaf)
  0x2f98c [0x8204] (.node .leaf 0x2f98d [0x8f9e] .leaf)))) 0x2f98e [0x446b] (.node (.node (.node
  (.node .leaf 0x2f98f [0x8291] .leaf) 0x2f990 [0x828b] (.node .leaf 0x2f991 [0x829d] .leaf))
  0x2f992 [0x52b3] (.node (.node .leaf 0x2f993 [0x82b1] .leaf) 0x2f994 [0x82b3] (.node .leaf
  0x2f995 [0x82bd] .leaf))) 0x2f996 [0x82e6] (.node (.node (.node .leaf 0x2f997 [0x26b3c] .leaf)
  0x2f998 [0x82e5] (.node .leaf 0x2f999 [0x831d] .leaf)) 0x2f99a [0x8363] (.node (.node .leaf
  0x2f99b [0x83ad] .leaf) 0x2f99c [0x8323] (.node .leaf 0x2f99d [0x83bd] .leaf)))))))

def decompTree_15 : Tree (List Nat) :=
  (.node (.node (.node (.node (.node (.node (.node .leaf 0x2f99f [0x8457] .leaf) 0x2f9a0 [0x8353]
  (.node .leaf 0x2f9a1 [0x83ca] .leaf)) 0x2f9a2 [0x83cc] (.node (.node .leaf 0x2f9a3 [0x83dc]
  .leaf) 0x2f9a4 [0x26c36] (.node .leaf 0x2f9a5 [0x26d6b] .leaf))) 0x2f9a6 [0x26cd5] (.node (.node
  (.node .leaf 0x2f9a7 [0x452b] .leaf) 0x2f9a8 [0x84f1] (.node .leaf 0x2f9a9 [0x84f3] .leaf))
  0x2f9aa [0x8516] (.node (.node .leaf 0x2f9ab [0x273ca] .leaf) 0x2f9ac [0x8564] (.node .leaf
  0x2f9ad [0x26f2c] .leaf)))) 0x2f9ae [0x455d] (.node (.node (.node (.node .leaf 0x2f9af [0x4561]
  .leaf) 0x2f9b0 [0x26fb1] (.node .leaf 0x2f9b1 [0x270d2] .leaf)) 0x2f9b2 [0x456b] (.node (.node
  .leaf 0x2f9b3 [0x8650] .leaf) 0x2f9b4 [0x865c] (.node .leaf 0x2f9b5 [0x8667] .leaf))) 0x2f9b6
  [0x8669] (.node (.node (.node .leaf 0x2f9b7 [0x86a9] .leaf) 0x2f9b8 [0x8688] (.node .leaf
  0x2f9b9 [0x870e] .leaf)) 0x2f9ba [0x86e2] (.node (.node .leaf 0x2f9bb [0x8779] .leaf) 0x2f9bc
  [0x8728] (.node .leaf 0x2f9bd [0x876b] .leaf))))) 0x2f9be [0x8786] (.node (.node (.node (.node
  (.node .leaf 0x2f9bf [0x45d7] .leaf) 0x2f9c0 [0x87e1] (.node .leaf 0x2f9c1 [0x8801] .leaf))
  0x2f9c2 [0x45f9] (.node (.node .leaf 0x2f9c3 [0x8860] .leaf) 0x2f9c4 [0x8863] (.node .leaf
  0x2f9c5 [0x27667] .leaf))) 0x2f9c6 [0x88d7] (.node (.node (.node .leaf 0x2f9c7 [0x88de] .leaf)
  0x2f9c8 [0x4635] (.node .leaf 0x2f9c9 [0x88fa] .leaf)) 0x2f9ca [0x34bb] (.node (.node .leaf
  0x2f9cb [0x278ae] .leaf) 0x2f9cc [0x27966] (.node .leaf 0x2f9cd [0x46be] .leaf)))) 0x2f9ce
  [0x46c7] (.node (.node (.node (.node .leaf 0x2f9cf [0x8aa0] .leaf) 0x2f9d0 [0x8aed] (.node .leaf
  0x2f9d1 [0x8b8a] .leaf)) 0x2f9d2 [0x8c55] (.node (.node .leaf 0x2f9d3 [0x27ca8] .leaf) 0x2f9d4
  [0x8cab] (.node .leaf 0x2f9d5 [0x8cc1] .leaf))) 0x2f9d6 [0x8d1b] (.node (.node (.node .leaf
  0x2f9d7 [0x8d77] .leaf) 0x2f9d8 [0x27f2f] (.node .leaf 0x2f9d9 [0x20804] .leaf)) 0x2f9da
  [0x8dcb] (.node (.node .leaf 0x2f9db [0x8dbc] .leaf) 0x2f9dc [0x8df0] (.node .leaf 0x2f9dd
  [0x208de] .leaf)))))) 0x2f9de [0x8ed4] (.node (.node (.node (.node (.node (.node .leaf 0x2f9df
  [0x8f38] .leaf) 0x2f9e0 [0x285d2] (.node .leaf 0x2f9e1 [0x285ed] .leaf)) 0x2f9e2 [0x9094] (.node
  (.node .leaf 0x2f9e3 [0x90f1] .leaf) 0x2f9e4 [0x9111] (.node .leaf 0x2f9e5 [0x2872e] .leaf)))
  0x2f9e6 [0x911b] (.node (.node (.node .leaf 0x2f9e7 [0x9238] .leaf) 0x2f9e8 [0x92d7] (.node
  .leaf 0x2f9e9 [0x92d8] .leaf)) 0x2f9ea [0x927c] (.node (.node .leaf 0x2f9eb [0x93f9] .leaf)
  0x2f9ec [0x9415] (.node .leaf 0x2f9ed [0x28bfa] .leaf)))) 0x2f9ee [0x958b] (.node (.node (.node
  (.node .leaf 0x2f9ef [0x4995] .leaf) 0x2f9f0 [0x95b7] (.node .leaf 0x2f9f1 [0x28d77] .leaf))
  0x2f9f2 [0x49e6] (.node (.node .leaf 0x2f9f3 [0x96c3] .leaf) 0x2f9f4 [0x5db2] (.node .leaf
  0x2f9f5 [0x9723] .leaf))) 0x2f9f6 [0x29145] (.node (.node (.node .leaf 0x2f9f7 [0x2921a] .leaf)
  0x2f9f8 [0x4a6e] (.node .leaf 0x2f9f9 [0x4a76] .leaf)) 0x2f9fa [0x97e0] (.node (.node .leaf
  0x2f9fb [0x2940a] .leaf) 0x2f9fc [0x4ab2] (.node .leaf 0x2f9fd [0x29496] .leaf))))) 0x2f9fe
  [0x980b] (.node (.node (.node (.node (.node .leaf 0x2f9ff [0x980b] .leaf) 0x2fa00 [0x9829]
  (.node .leaf 0x2fa01 [0x295b6] .leaf)) 0x2fa02 [0x98e2] (.node (.node .leaf 0x2fa03 [0x4b33]
  .leaf) 0x2fa04 [0x9929] (.node .leaf 0x2fa05 [0x99a7] .leaf))) 0x2fa06 [0x99c2] (.node (.node
  (.node .leaf 0x2fa07 [0x99fe] .leaf) 0x2fa08 [0x4bce] (.node .leaf 0x2fa09 [0x29b30] .leaf))
  0x2fa0a [0x9b12] (.node (.node .leaf 0x2fa0b [0x9c40] .leaf) 0x2fa0c [0x9cfd] (.node .leaf
  0x2fa0d [0x4cce] .leaf)))) 0x2fa0e [0x4ced] (.node (.node (.node (.node .leaf 0x2fa0f [0x9d67]
  .leaf) 0x2fa10 [0x2a0ce] (.node .leaf 0x2fa11 [0x4cf8] .leaf)) 0x2fa12 [0x2a105] (.node (.node
  .leaf 0x2fa13 [0x2a20e] .leaf) 0x2fa14 [0x2a291] (.node .leaf 0x2fa15 [0x9ebb] .leaf))) 0x2fa16
  [0x4d56] (.node (.node (.node .leaf 0x2fa17 [0x9ef9] .leaf) 0x2fa18 [0x9efe] (.node .leaf
  0x2fa19 [0x9f05] .leaf)) 0x2fa1a [0x9f0f] (.node (.node .leaf 0x2fa1b [0x9f16] .leaf) 0x2fa1c
  [0x9f3b] (.node .leaf 0x2fa1d [0x2a600] .leaf)))))))

/-- Full canonical decompositions (NFD), without Hangul syllables. -/
def decompTree : Tree (List Nat) :=
  (.node (.node (.node (.node decompTree_0 0x15c [0x53, 0x302] decompTree_1) 0x37e [0x3b] (.node
  decompTree_2 0xf43 [0xf42, 0xfb7] decompTree_3)) 0x1e64 [0x53, 0x301, 0x307] (.node (.node
  decompTree_4 0x1eea [0x55, 0x31b, 0x300] decompTree_5) 0x1f7d [0x3c9, 0x301] (.node decompTree_6
  0x220c [0x220b, 0x338] decompTree_7))) 0xf91f [0x862d] (.node (.node (.node decompTree_8 0xf9a0
  [0x88c2] decompTree_9) 0xfa2d [0x9db4] (.node decompTree_10 0xfab0 [0x7df4] decompTree_11))
  0x2f81b [0x51b5] (.node (.node decompTree_12 0x2f89c [0x5f9a] decompTree_13) 0x2f91d [0x24263]
  (.node decompTree_14 0x2f99e [0x83e7] decompTree_15))))

def composeTree_0 : Tree Nat :=
  (.node (.node (.node (.node (.node (.node (.node .leaf 0x7800338 0x226e .leaf) 0x7a00338 0x2260
  (.node .leaf 0x7c00338 0x226f .leaf)) 0x8200300 0xc0 (.node (.node .leaf 0x8200301 0xc1 .leaf)
  0x8200302 0xc2 (.node .leaf 0x8200303 0xc3 .leaf))) 0x8200304 0x100 (.node (.node (.node .leaf
  0x8200306 0x102 .leaf) 0x8200307 0x226 (.node .leaf 0x8200308 0xc4 .leaf)) 0x8200309 0x1ea2
  (.node (.node .leaf 0x820030a 0xc5 .leaf) 0x820030c 0x1cd .leaf))) 0x820030f 0x200 (.node (.node
  (.node (.node .leaf 0x8200311 0x202 .leaf) 0x8200323 0x1ea0 (.node .leaf 0x8200325 0x1e00
  .leaf)) 0x8200328 0x104 (.node (.node .leaf 0x8400307 0x1e02 .leaf) 0x8400323 0x1e04 (.node
  .leaf 0x8400331 0x1e06 .leaf))) 0x8600301 0x106 (.node (.node (.node .leaf 0x8600302 0x108
  .leaf) 0x8600307 0x10a (.node .leaf 0x860030c 0x10c .leaf)) 0x8600327 0xc7 (.node (.node .leaf
  0x8800307 0x1e0a .leaf) 0x880030c 0x10e .leaf)))) 0x8800323 0x1e0c (.node (.node (.node (.node
  (.node .leaf 0x8800327 0x1e10 .leaf) 0x880032d 0x1e12 (.node .leaf 0x8800331 0x1e0e .leaf))
  0x8a00300 0xc8 (.node (.node .leaf 0x8a00301 0xc9 .leaf) 0x8a00302 0xca (.node .leaf 0x8a00303
  0x1ebc .leaf))) 0x8a00304 0x112 (.node (.node (.node .leaf 0x8a00306 0x114 .leaf) 0x8a00307
  0x116 (.node .leaf 0x8a00308 0xcb .leaf)) 0x8a00309 0x1eba (.node (.node .leaf 0x8a0030c 0x11a
  .leaf) 0x8a0030f 0x204 .leaf))) 0x8a00311 0x206 (.node (.node (.node (.node .leaf 0x8a00323
  0x1eb8 .leaf) 0x8a00327 0x228 (.node .leaf 0x8a00328 0x118 .leaf)) 0x8a0032d 0x1e18 (.node
  (.node .leaf 0x8a00330 0x1e1a .leaf) 0x8c00307 0x1e1e .leaf)) 0x8e00301 0x1f4 (.node (.node
  (.node .leaf 0x8e00302 0x11c .leaf) 0x8e00304 0x1e20 (.node .leaf 0x8e00306 0x11e .leaf))
  0x8e00307 0x120 (.node (.node .leaf 0x8e0030c 0x1e6 .leaf) 0x8e00327 0x122 .leaf))))) 0x9000302
  0x124 (.node (.node (.node (.node (.node (.node .leaf 0x9000307 0x1e22 .leaf) 0x9000308 0x1e26
  (.node .leaf 0x900030c 0x21e .leaf)) 0x9000323 0x1e24 (.node (.node .leaf 0x9000327 0x1e28
  .leaf) 0x900032e 0x1e2a (.node .leaf 0x9200300 0xcc .leaf))) 0x9200301 0xcd (.node (.node (.node
  .leaf 0x9200302 0xce .leaf) 0x9200303 0x128 (.node .leaf 0x9200304 0x12a .leaf)) 0x9200306 0x12c
  (.node (.node .leaf 0x9200307 0x130 .leaf) 0x9200308 0xcf .leaf))) 0x9200309 0x1ec8 (.node
  (.node (.node (.node .leaf 0x920030c 0x1cf .leaf) 0x920030f 0x208 (.node .leaf 0x9200311 0x20a
  .leaf)) 0x9200323 0x1eca (.node (.node .leaf 0x9200328 0x12e .leaf) 0x9200330 0x1e2c (.node
  .leaf 0x9400302 0x134 .leaf))) 0x9600301 0x1e30 (.node (.node (.node .leaf 0x960030c 0x1e8
  .leaf) 0x9600323 0x1e32 (.node .leaf 0x9600327 0x136 .leaf)) 0x9600331 0x1e34 (.node (.node
  .leaf 0x9800301 0x139 .leaf) 0x980030c 0x13d .leaf)))) 0x9800323 0x1e36 (.node (.node (.node
  (.node (.node .leaf 0x9800327 0x13b .leaf) 0x980032d 0x1e3c (.node .leaf 0x9800331 0x1e3a
  .leaf)) 0x9a00301 0x1e3e (.node (.node .leaf 0x9a00307 0x1e40 .leaf) 0x9a00323 0x1e42 (.node
  .leaf 0x9c00300 0x1f8 .leaf))) 0x9c00301 0x143 (.node (.node (.node .leaf 0x9c00303 0xd1 .leaf)
  0x9c00307 0x1e44 (.node .leaf 0x9c0030c 0x147 .leaf)) 0x9c00323 0x1e46 (.node (.node .leaf
  0x9c00327 0x145 .leaf) 0x9c0032d 0x1e4a .leaf))) 0x9c00331 0x1e48 (.node (.node (.node (.node
  .leaf 0x9e00300 0xd2 .leaf) 0x9e00301 0xd3 (.node .leaf 0x9e00302 0xd4 .leaf)) 0x9e00303 0xd5
  (.node (.node .leaf 0x9e00304 0x14c .leaf) 0x9e00306 0x14e .leaf)) 0x9e00307 0x22e (.node (.node
  (.node .leaf 0x9e00308 0xd6 .leaf) 0x9e00309 0x1ece (.node .leaf 0x9e0030b 0x150 .leaf))
  0x9e0030c 0x1d1 (.node (.node .leaf 0x9e0030f 0x20c .leaf) 0x9e00311 0x20e .leaf))))))

def composeTree_1 : Tree Nat :=
  (.node (.node (.node (.node (.node (.node (.node .leaf 0x9e00323 0x1ecc .leaf) 0x9e00328 0x1ea
  (.node .leaf 0xa000301 0x1e54 .leaf)) 0xa000307 0x1e56 (.node (.node .leaf 0xa400301 0x154
  .leaf) 0xa400307 0x1e58 (.node .leaf 0xa40030c 0x158 .leaf))) 0xa40030f 0x210 (.node (.node
  (.node .leaf 0xa400311 0x212 .leaf) 0xa400323 0x1e5a (.node .leaf 0xa400327 0x156 .leaf))
  0xa400331 0x1e5e (.node (.node .leaf 0xa600301 0x15a .leaf) 0xa600302 0x15c .leaf))) 0xa600307
  0x1e60 (.node (.node (.node (.node .leaf 0xa60030c 0x160 .leaf) 0xa600323 0x1e62 (.node .leaf
  0xa600326 0x218 .leaf)) 0xa600327 0x15e (.node (.node .leaf 0xa800307 0x1e6a .leaf) 0xa80030c
  0x164 (.node .leaf 0xa800323 0x1e6c .leaf))) 0xa800326 0x21a (.node (.node (.node .leaf
  0xa800327 0x162 .leaf) 0xa80032d 0x1e70 (.node .leaf 0xa800331 0x1e6e .leaf)) 0xaa00300 0xd9
  (.node (.node .leaf 0xaa00301 0xda .leaf) 0xaa00302 0xdb .leaf)))) 0xaa00303 0x168 (.node (.node
  (.node (.node (.node .leaf 0xaa00304 0x16a .leaf) 0xaa00306 0x16c (.node .leaf 0xaa00308 0xdc
  .leaf)) 0xaa00309 0x1ee6 (.node (.node .leaf 0xaa0030a 0x16e .leaf) 0xaa0030b 0x170 (.node .leaf
  0xaa0030c 0x1d3 .leaf))) 0xaa0030f 0x214 (.node (.node (.node .leaf 0xaa00311 0x216 .leaf)
  0xaa0031b 0x1af (.node .leaf 0xaa00323 0x1ee4 .leaf)) 0xaa00324 0x1e72 (.node (.node .leaf
  0xaa00328 0x172 .leaf) 0xaa0032d 0x1e76 .leaf))) 0xaa00330 0x1e74 (.node (.node (.node (.node
  .leaf 0xac00303 0x1e7c .leaf) 0xac00323 0x1e7e (.node .leaf 0xae00300 0x1e80 .leaf)) 0xae00301
  0x1e82 (.node (.node .leaf 0xae00302 0x174 .leaf) 0xae00307 0x1e86 .leaf)) 0xae00308 0x1e84
  (.node (.node (.node .leaf 0xae00323 0x1e88 .leaf) 0xb000307 0x1e8a (.node .leaf 0xb000308
  0x1e8c .leaf)) 0xb200300 0x1ef2 (.node (.node .leaf 0xb200301 0xdd .leaf) 0xb200302 0x176
  .leaf))))) 0xb200303 0x1ef8 (.node (.node (.node (.node (.node (.node .leaf 0xb200304 0x232
  .leaf) 0xb200307 0x1e8e (.node .leaf 0xb200308 0x178 .leaf)) 0xb200309 0x1ef6 (.node (.node
  .leaf 0xb200323 0x1ef4 .leaf) 0xb400301 0x179 (.node .leaf 0xb400302 0x1e90 .leaf))) 0xb400307
  0x17b (.node (.node (.node .leaf 0xb40030c 0x17d .leaf) 0xb400323 0x1e92 (.node .leaf 0xb400331
  0x1e94 .leaf)) 0xc200300 0xe0 (.node (.node .leaf 0xc200301 0xe1 .leaf) 0xc200302 0xe2 .leaf)))
  0xc200303 0xe3 (.node (.node (.node (.node .leaf 0xc200304 0x101 .leaf) 0xc200306 0x103 (.node
  .leaf 0xc200307 0x227 .leaf)) 0xc200308 0xe4 (.node (.node .leaf 0xc200309 0x1ea3 .leaf)
  0xc20030a 0xe5 (.node .leaf 0xc20030c 0x1ce .leaf))) 0xc20030f 0x201 (.node (.node (.node .leaf
  0xc200311 0x203 .leaf) 0xc200323 0x1ea1 (.node .leaf 0xc200325 0x1e01 .leaf)) 0xc200328 0x105
  (.node (.node .leaf 0xc400307 0x1e03 .leaf) 0xc400323 0x1e05 .leaf)))) 0xc400331 0x1e07 (.node
  (.node (.node (.node (.node .leaf 0xc600301 0x107 .leaf) 0xc600302 0x109 (.node .leaf 0xc600307
  0x10b .leaf)) 0xc60030c 0x10d (.node (.node .leaf 0xc600327 0xe7 .leaf) 0xc800307 0x1e0b (.node
  .leaf 0xc80030c 0x10f .leaf))) 0xc800323 0x1e0d (.node (.node (.node .leaf 0xc800327 0x1e11
  .leaf) 0xc80032d 0x1e13 (.node .leaf 0xc800331 0x1e0f .leaf)) 0xca00300 0xe8 (.node (.node .leaf
  0xca00301 0xe9 .leaf) 0xca00302 0xea .leaf))) 0xca00303 0x1ebd (.node (.node (.node (.node .leaf
  0xca00304 0x113 .leaf) 0xca00306 0x115 (.node .leaf 0xca00307 0x117 .leaf)) 0xca00308 0xeb
  (.node (.node .leaf 0xca00309 0x1ebb .leaf) 0xca0030c 0x11b .leaf)) 0xca0030f 0x205 (.node
  (.node (.node .leaf 0xca00311 0x207 .leaf) 0xca00323 0x1eb9 (.node .leaf 0xca00327 0x229 .leaf))
  0xca00328 0x119 (.node (.node .leaf 0xca0032d 0x1e19 .leaf) 0xca00330 0x1e1b .leaf))))))

def composeTree_2 : Tree Nat :=
  (.node (.node (.node (.node (.node (.node (.node .leaf 0xce00301 0x1f5 .leaf) 0xce00302 0x11d
  (.node .leaf 0xce00304 0x1e21 .leaf)) 0xce00306 0x11f (.node (.node .leaf 0xce00307 0x121 .leaf)
  0xce0030c 0x1e7 (.node .leaf 0xce00327 0x123 .leaf))) 0xd000302 0x125 (.node (.node (.node .leaf
  0xd000307 0x1e23 .leaf) 0xd000308 0x1e27 (.node .leaf 0xd00030c 0x21f .leaf)) 0xd000323 0x1e25
  (.node (.node .leaf 0xd000327 0x1e29 .leaf) 0xd00032e 0x1e2b .leaf))) 0xd000331 0x1e96 (.node
  (.node (.node (.node .leaf 0xd200300 0xec .leaf) 0xd200301 0xed (.node .leaf 0xd200302 0xee
  .leaf)) 0xd200303 0x129 (.node (.node .leaf 0xd200304 0x12b .leaf) 0xd200306 0x12d (.node .leaf
  0xd200308 0xef .leaf))) 0xd200309 0x1ec9 (.node (.node (.node .leaf 0xd20030c 0x1d0 .leaf)
  0xd20030f 0x209 (.node .leaf 0xd200311 0x20b .leaf)) 0xd200323 0x1ecb (.node (.node .leaf
  0xd200328 0x12f .leaf) 0xd200330 0x1e2d .leaf)))) 0xd400302 0x135 (.node (.node (.node (.node
  (.node .leaf 0xd40030c 0x1f0 .leaf) 0xd600301 0x1e31 (.node .leaf 0xd60030c 0x1e9 .leaf))
  0xd600323 0x1e33 (.node (.node .leaf 0xd600327 0x137 .leaf) 0xd600331 0x1e35 (.node .leaf
  0xd800301 0x13a .leaf))) 0xd80030c 0x13e (.node (.node (.node .leaf 0xd800323 0x1e37 .leaf)
  0xd800327 0x13c (.node .leaf 0xd80032d 0x1e3d .leaf)) 0xd800331 0x1e3b (.node (.node .leaf
  0xda00301 0x1e3f .leaf) 0xda00307 0x1e41 .leaf))) 0xda00323 0x1e43 (.node (.node (.node (.node
  .leaf 0xdc00300 0x1f9 .leaf) 0xdc00301 0x144 (.node .leaf 0xdc00303 0xf1 .leaf)) 0xdc00307
  0x1e45 (.node (.node .leaf 0xdc0030c 0x148 .leaf) 0xdc00323 0x1e47 .leaf)) 0xdc00327 0x146
  (.node (.node (.node .leaf 0xdc0032d 0x1e4b .leaf) 0xdc00331 0x1e49 (.node .leaf 0xde00300 0xf2
  .leaf)) 0xde00301 0xf3 (.node (.node .leaf 0xde00302 0xf4 .leaf) 0xde00303 0xf5 .leaf)))))
  0xde00304 0x14d (.node (.node (.node (.node (.node (.node .leaf 0xde00306 0x14f .leaf) 0xde00307
  0x22f (.node .leaf 0xde00308 0xf6 .leaf)) 0xde00309 0x1ecf (.node (.node .leaf 0xde0030b 0x151
  .leaf) 0xde0030c 0x1d2 (.node .leaf 0xde0030f 0x20d .leaf))) 0xde00311 0x20f (.node (.node
  (.node .leaf 0xde0031b 0x1a1 .leaf) 0xde00323 0x1ecd (.node .leaf 0xde00328 0x1eb .leaf))
  0xe000301 0x1e55 (.node (.node .leaf 0xe000307 0x1e57 .leaf) 0xe400301 0x155 .leaf))) 0xe400307
  0x1e59 (.node (.node (.node (.node .leaf 0xe40030c 0x159 .leaf) 0xe40030f 0x211 (.node .leaf
  0xe400311 0x213 .leaf)) 0xe400323 0x1e5b (.node (.node .leaf 0xe400327 0x157 .leaf) 0xe400331
  0x1e5f (.node .leaf 0xe600301 0x15b .leaf))) 0xe600302 0x15d (.node (.node (.node .leaf
  0xe600307 0x1e61 .leaf) 0xe60030c 0x161 (.node .leaf 0xe600323 0x1e63 .leaf)) 0xe600326 0x219
  (.node (.node .leaf 0xe600327 0x15f .leaf) 0xe800307 0x1e6b .leaf)))) 0xe800308 0x1e97 (.node
  (.node (.node (.node (.node .leaf 0xe80030c 0x165 .leaf) 0xe800323 0x1e6d (.node .leaf 0xe800326
  0x21b .leaf)) 0xe800327 0x163 (.node (.node .leaf 0xe80032d 0x1e71 .leaf) 0xe800331 0x1e6f
  (.node .leaf 0xea00300 0xf9 .leaf))) 0xea00301 0xfa (.node (.node (.node .leaf 0xea00302 0xfb
  .leaf) 0xea00303 0x169 (.node .leaf 0xea00304 0x16b .leaf)) 0xea00306 0x16d (.node (.node .leaf
  0xea00308 0xfc .leaf) 0xea00309 0x1ee7 .leaf))) 0xea0030a 0x16f (.node (.node (.node (.node
  .leaf 0xea0030b 0x171 .leaf) 0xea0030c 0x1d4 (.node .leaf 0xea0030f 0x215 .leaf)) 0xea00311
  0x217 (.node (.node .leaf 0xea0031b 0x1b0 .leaf) 0xea00323 0x1ee5 .leaf)) 0xea00324 0x1e73
  (.node (.node (.node .leaf 0xea00328 0x173 .leaf) 0xea0032d 0x1e77 (.node .leaf 0xea00330 0x1e75
  .leaf)) 0xec00303 0x1e7d (.node (.node .leaf 0xec00323 0x1e7f .leaf) 0xee00300 0x1e81
  .leaf))))))

def composeTree_3 : Tree Nat :=
  (.node (.node (.node (.node (.node (.node (.node .leaf 0xee00302 0x175 .leaf) 0xee00307 0x1e87
  (.node .leaf 0xee00308 0x1e85 .leaf)) 0xee0030a 0x1e98 (.node (.node .leaf 0xee00323 0x1e89
  .leaf) 0xf000307 0x1e8b (.node .leaf 0xf000308 0x1e8d .leaf))) 0xf200300 0x1ef3 (.node (.node
  (.node .leaf 0xf200301 0xfd .leaf) 0xf200302 0x177 (.node .leaf 0xf200303 0x1ef9 .leaf))
  0xf200304 0x233 (.node (.node .leaf 0xf200307 0x1e8f .leaf) 0xf200308 0xff .leaf))) 0xf200309
  0x1ef7 (.node (.node (.node (.node .leaf 0xf20030a 0x1e99 .leaf) 0xf200323 0x1ef5 (.node .leaf
  0xf400301 0x17a .leaf)) 0xf400302 0x1e91 (.node (.node .leaf 0xf400307 0x17c .leaf) 0xf40030c
  0x17e (.node .leaf 0xf400323 0x1e93 .leaf))) 0xf400331 0x1e95 (.node (.node (.node .leaf
  0x15000300 0x1fed .leaf) 0x15000301 0x385 (.node .leaf 0x15000342 0x1fc1 .leaf)) 0x18400300
  0x1ea6 (.node (.node .leaf 0x18400301 0x1ea4 .leaf) 0x18400303 0x1eaa .leaf)))) 0x18400309
  0x1ea8 (.node (.node (.node (.node (.node .leaf 0x18800304 0x1de .leaf) 0x18a00301 0x1fa (.node
  .leaf 0x18c00301 0x1fc .leaf)) 0x18c00304 0x1e2 (.node (.node .leaf 0x18e00301 0x1e08 .leaf)
  0x19400300 0x1ec0 (.node .leaf 0x19400301 0x1ebe .leaf))) 0x19400303 0x1ec4 (.node (.node (.node
  .leaf 0x19400309 0x1ec2 .leaf) 0x19e00301 0x1e2e (.node .leaf 0x1a800300 0x1ed2 .leaf))
  0x1a800301 0x1ed0 (.node (.node .leaf 0x1a800303 0x1ed6 .leaf) 0x1a800309 0x1ed4 .leaf)))
  0x1aa00301 0x1e4c (.node (.node (.node (.node .leaf 0x1aa00304 0x22c .leaf) 0x1aa00308 0x1e4e
  (.node .leaf 0x1ac00304 0x22a .leaf)) 0x1b000301 0x1fe (.node (.node .leaf 0x1b800300 0x1db
  .leaf) 0x1b800301 0x1d7 .leaf)) 0x1b800304 0x1d5 (.node (.node (.node .leaf 0x1b80030c 0x1d9
  .leaf) 0x1c400300 0x1ea7 (.node .leaf 0x1c400301 0x1ea5 .leaf)) 0x1c400303 0x1eab (.node (.node
  .leaf 0x1c400309 0x1ea9 .leaf) 0x1c800304 0x1df .leaf))))) 0x1ca00301 0x1fb (.node (.node (.node
  (.node (.node (.node .leaf 0x1cc00301 0x1fd .leaf) 0x1cc00304 0x1e3 (.node .leaf 0x1ce00301
  0x1e09 .leaf)) 0x1d400300 0x1ec1 (.node (.node .leaf 0x1d400301 0x1ebf .leaf) 0x1d400303 0x1ec5
  (.node .leaf 0x1d400309 0x1ec3 .leaf))) 0x1de00301 0x1e2f (.node (.node (.node .leaf 0x1e800300
  0x1ed3 .leaf) 0x1e800301 0x1ed1 (.node .leaf 0x1e800303 0x1ed7 .leaf)) 0x1e800309 0x1ed5 (.node
  (.node .leaf 0x1ea00301 0x1e4d .leaf) 0x1ea00304 0x22d .leaf))) 0x1ea00308 0x1e4f (.node (.node
  (.node (.node .leaf 0x1ec00304 0x22b .leaf) 0x1f000301 0x1ff (.node .leaf 0x1f800300 0x1dc
  .leaf)) 0x1f800301 0x1d8 (.node (.node .leaf 0x1f800304 0x1d6 .leaf) 0x1f80030c 0x1da .leaf))
  0x20400300 0x1eb0 (.node (.node (.node .leaf 0x20400301 0x1eae .leaf) 0x20400303 0x1eb4 (.node
  .leaf 0x20400309 0x1eb2 .leaf)) 0x20600300 0x1eb1 (.node (.node .leaf 0x20600301 0x1eaf .leaf)
  0x20600303 0x1eb5 .leaf)))) 0x20600309 0x1eb3 (.node (.node (.node (.node (.node .leaf
  0x22400300 0x1e14 .leaf) 0x22400301 0x1e16 (.node .leaf 0x22600300 0x1e15 .leaf)) 0x22600301
  0x1e17 (.node (.node .leaf 0x29800300 0x1e50 .leaf) 0x29800301 0x1e52 (.node .leaf 0x29a00300
  0x1e51 .leaf))) 0x29a00301 0x1e53 (.node (.node (.node .leaf 0x2b400307 0x1e64 .leaf) 0x2b600307
  0x1e65 (.node .leaf 0x2c000307 0x1e66 .leaf)) 0x2c200307 0x1e67 (.node (.node .leaf 0x2d000301
  0x1e78 .leaf) 0x2d200301 0x1e79 .leaf))) 0x2d400308 0x1e7a (.node (.node (.node (.node .leaf
  0x2d600308 0x1e7b .leaf) 0x2fe00307 0x1e9b (.node .leaf 0x34000300 0x1edc .leaf)) 0x34000301
  0x1eda (.node (.node .leaf 0x34000303 0x1ee0 .leaf) 0x34000309 0x1ede .leaf)) 0x34000323 0x1ee2
  (.node (.node (.node .leaf 0x34200300 0x1edd .leaf) 0x34200301 0x1edb (.node .leaf 0x34200303
  0x1ee1 .leaf)) 0x34200309 0x1edf (.node (.node .leaf 0x34200323 0x1ee3 .leaf) 0x35e00300 0x1eea
  .leaf))))))

def composeTree_4 : Tree Nat :=
  (.node (.node (.node (.node (.node (.node (.node .leaf 0x35e00303 0x1eee .leaf) 0x35e00309
  0x1eec (.node .leaf 0x35e00323 0x1ef0 .leaf)) 0x36000300 0x1eeb (.node (.node .leaf 0x36000301
  0x1ee9 .leaf) 0x36000303 0x1eef (.node .leaf 0x36000309 0x1eed .leaf))) 0x36000323 0x1ef1 (.node
  (.node (.node .leaf 0x36e0030c 0x1ee .leaf) 0x3d400304 0x1ec (.node .leaf 0x3d600304 0x1ed
  .leaf)) 0x44c00304 0x1e0 (.node (.node .leaf 0x44e00304 0x1e1 .leaf) 0x45000306 0x1e1c .leaf)))
  0x45200306 0x1e1d (.node (.node (.node (.node .leaf 0x45c00304 0x230 .leaf) 0x45e00304 0x231
  (.node .leaf 0x5240030c 0x1ef .leaf)) 0x72200300 0x1fba (.node (.node .leaf 0x72200301 0x386
  .leaf) 0x72200304 0x1fb9 (.node .leaf 0x72200306 0x1fb8 .leaf))) 0x72200313 0x1f08 (.node (.node
  (.node .leaf 0x72200314 0x1f09 .leaf) 0x72200345 0x1fbc (.node .leaf 0x72a00300 0x1fc8 .leaf))
  0x72a00301 0x388 (.node (.node .leaf 0x72a00313 0x1f18 .leaf) 0x72a00314 0x1f19 .leaf))))
  0x72e00300 0x1fca (.node (.node (.node (.node (.node .leaf 0x72e00301 0x389 .leaf) 0x72e00313
  0x1f28 (.node .leaf 0x72e00314 0x1f29 .leaf)) 0x72e00345 0x1fcc (.node (.node .leaf 0x73200300
  0x1fda .leaf) 0x73200301 0x38a (.node .leaf 0x73200304 0x1fd9 .leaf))) 0x73200306 0x1fd8 (.node
  (.node (.node .leaf 0x73200308 0x3aa .leaf) 0x73200313 0x1f38 (.node .leaf 0x73200314 0x1f39
  .leaf)) 0x73e00300 0x1ff8 (.node (.node .leaf 0x73e00301 0x38c .leaf) 0x73e00313 0x1f48 .leaf)))
  0x73e00314 0x1f49 (.node (.node (.node (.node .leaf 0x74200314 0x1fec .leaf) 0x74a00300 0x1fea
  (.node .leaf 0x74a00301 0x38e .leaf)) 0x74a00304 0x1fe9 (.node (.node .leaf 0x74a00306 0x1fe8
  .leaf) 0x74a00308 0x3ab .leaf)) 0x74a00314 0x1f59 (.node (.node (.node .leaf 0x75200300 0x1ffa
  .leaf) 0x75200301 0x38f (.node .leaf 0x75200313 0x1f68 .leaf)) 0x75200314 0x1f69 (.node (.node
  .leaf 0x75200345 0x1ffc .leaf) 0x75800345 0x1fb4 .leaf))))) 0x75c00345 0x1fc4 (.node (.node
  (.node (.node (.node (.node .leaf 0x76200300 0x1f70 .leaf) 0x76200301 0x3ac (.node .leaf
  0x76200304 0x1fb1 .leaf)) 0x76200306 0x1fb0 (.node (.node .leaf 0x76200313 0x1f00 .leaf)
  0x76200314 0x1f01 (.node .leaf 0x76200342 0x1fb6 .leaf))) 0x76200345 0x1fb3 (.node (.node (.node
  .leaf 0x76a00300 0x1f72 .leaf) 0x76a00301 0x3ad (.node .leaf 0x76a00313 0x1f10 .leaf))
  0x76a00314 0x1f11 (.node (.node .leaf 0x76e00300 0x1f74 .leaf) 0x76e00301 0x3ae .leaf)))
  0x76e00313 0x1f20 (.node (.node (.node (.node .leaf 0x76e00314 0x1f21 .leaf) 0x76e00342 0x1fc6
  (.node .leaf 0x76e00345 0x1fc3 .leaf)) 0x77200300 0x1f76 (.node (.node .leaf 0x77200301 0x3af
  .leaf) 0x77200304 0x1fd1 (.node .leaf 0x77200306 0x1fd0 .leaf))) 0x77200308 0x3ca (.node (.node
  (.node .leaf 0x77200313 0x1f30 .leaf) 0x77200314 0x1f31 (.node .leaf 0x77200342 0x1fd6 .leaf))
  0x77e00300 0x1f78 (.node (.node .leaf 0x77e00301 0x3cc .leaf) 0x77e00313 0x1f40 .leaf))))
  0x77e00314 0x1f41 (.node (.node (.node (.node (.node .leaf 0x78200313 0x1fe4 .leaf) 0x78200314
  0x1fe5 (.node .leaf 0x78a00300 0x1f7a .leaf)) 0x78a00301 0x3cd (.node (.node .leaf 0x78a00304
  0x1fe1 .leaf) 0x78a00306 0x1fe0 (.node .leaf 0x78a00308 0x3cb .leaf))) 0x78a00313 0x1f50 (.node
  (.node (.node .leaf 0x78a00314 0x1f51 .leaf) 0x78a00342 0x1fe6 (.node .leaf 0x79200300 0x1f7c
  .leaf)) 0x79200301 0x3ce (.node (.node .leaf 0x79200313 0x1f60 .leaf) 0x79200314 0x1f61 .leaf)))
  0x79200342 0x1ff6 (.node (.node (.node (.node .leaf 0x79200345 0x1ff3 .leaf) 0x79400300 0x1fd2
  (.node .leaf 0x79400301 0x390 .leaf)) 0x79400342 0x1fd7 (.node (.node .leaf 0x79600300 0x1fe2
  .leaf) 0x79600301 0x3b0 .leaf)) 0x79600342 0x1fe7 (.node (.node (.node .leaf 0x79c00345 0x1ff4
  .leaf) 0x7a400301 0x3d3 (.node .leaf 0x7a400308 0x3d4 .leaf)) 0x80c00308 0x407 (.node (.node
  .leaf 0x82000306 0x4d0 .leaf) 0x82000308 0x4d2 .leaf))))))

def composeTree_5 : Tree Nat :=
  (.node (.node (.node (.node (.node (.node (.node .leaf 0x82a00300 0x400 .leaf) 0x82a00306 0x4d6
  (.node .leaf 0x82a00308 0x401 .leaf)) 0x82c00306 0x4c1 (.node (.node .leaf 0x82c00308 0x4dc
  .leaf) 0x82e00308 0x4de (.node .leaf 0x83000300 0x40d .leaf))) 0x83000304 0x4e2 (.node (.node
  (.node .leaf 0x83000306 0x419 .leaf) 0x83000308 0x4e4 (.node .leaf 0x83400301 0x40c .leaf))
  0x83c00308 0x4e6 (.node (.node .leaf 0x84600304 0x4ee .leaf) 0x84600306 0x40e .leaf)))
  0x84600308 0x4f0 (.node (.node (.node (.node .leaf 0x8460030b 0x4f2 .leaf) 0x84e00308 0x4f4
  (.node .leaf 0x85600308 0x4f8 .leaf)) 0x85a00308 0x4ec (.node (.node .leaf 0x86000306 0x4d1
  .leaf) 0x86000308 0x4d3 (.node .leaf 0x86600301 0x453 .leaf))) 0x86a00300 0x450 (.node (.node
  (.node .leaf 0x86a00306 0x4d7 .leaf) 0x86a00308 0x451 (.node .leaf 0x86c00306 0x4c2 .leaf))
  0x86c00308 0x4dd (.node (.node .leaf 0x86e00308 0x4df .leaf) 0x87000300 0x45d .leaf))))
  0x87000304 0x4e3 (.node (.node (.node (.node (.node .leaf 0x87000306 0x439 .leaf) 0x87000308
  0x4e5 (.node .leaf 0x87400301 0x45c .leaf)) 0x87c00308 0x4e7 (.node (.node .leaf 0x88600304
  0x4ef .leaf) 0x88600306 0x45e (.node .leaf 0x88600308 0x4f1 .leaf))) 0x8860030b 0x4f3 (.node
  (.node (.node .leaf 0x88e00308 0x4f5 .leaf) 0x89600308 0x4f9 (.node .leaf 0x89a00308 0x4ed
  .leaf)) 0x8ac00308 0x457 (.node (.node .leaf 0x8e80030f 0x476 .leaf) 0x8ea0030f 0x477 .leaf)))
  0x9b000308 0x4da (.node (.node (.node (.node .leaf 0x9b200308 0x4db .leaf) 0x9d000308 0x4ea
  (.node .leaf 0x9d200308 0x4eb .leaf)) 0xc4e00653 0x622 (.node (.node .leaf 0xc4e00654 0x623
  .leaf) 0xc4e00655 0x625 .leaf)) 0xc9000654 0x624 (.node (.node (.node .leaf 0xc9400654 0x626
  .leaf) 0xd8200654 0x6c2 (.node .leaf 0xda400654 0x6d3 .leaf)) 0xdaa00654 0x6c0 (.node (.node
  .leaf 0x12500093c 0x929 .leaf) 0x12600093c 0x931 .leaf))))) 0x12660093c 0x934 (.node (.node
  (.node (.node (.node (.node .leaf 0x138e009be 0x9cb .leaf) 0x138e009d7 0x9cc (.node .leaf
  0x168e00b3e 0xb4b .leaf)) 0x168e00b56 0xb48 (.node (.node .leaf 0x168e00b57 0xb4c .leaf)
  0x172400bd7 0xb94 (.node .leaf 0x178c00bbe 0xbca .leaf))) 0x178c00bd7 0xbcc (.node (.node (.node
  .leaf 0x178e00bbe 0xbcb .leaf) 0x188c00c56 0xc48 (.node .leaf 0x197e00cd5 0xcc0 .leaf))
  0x198c00cc2 0xcca (.node (.node .leaf 0x198c00cd5 0xcc7 .leaf) 0x198c00cd6 0xcc8 .leaf)))
  0x199400cd5 0xccb (.node (.node (.node (.node .leaf 0x1a8c00d3e 0xd4a .leaf) 0x1a8c00d57 0xd4c
  (.node .leaf 0x1a8e00d3e 0xd4b .leaf)) 0x1bb200dca 0xdda (.node (.node .leaf 0x1bb200dcf 0xddc
  .leaf) 0x1bb200ddf 0xdde (.node .leaf 0x1bb800dca 0xddd .leaf))) 0x204a0102e 0x1026 (.node
  (.node (.node .leaf 0x360a01b35 0x1b06 .leaf) 0x360e01b35 0x1b08 (.node .leaf 0x361201b35 0x1b0a
  .leaf)) 0x361601b35 0x1b0c (.node (.node .leaf 0x361a01b35 0x1b0e .leaf) 0x362201b35 0x1b12
  .leaf)))) 0x367401b35 0x1b3b (.node (.node (.node (.node (.node .leaf 0x367801b35 0x1b3d .leaf)
  0x367c01b35 0x1b40 (.node .leaf 0x367e01b35 0x1b41 .leaf)) 0x368401b35 0x1b43 (.node (.node
  .leaf 0x3c6c00304 0x1e38 .leaf) 0x3c6e00304 0x1e39 (.node .leaf 0x3cb400304 0x1e5c .leaf)))
  0x3cb600304 0x1e5d (.node (.node (.node .leaf 0x3cc400307 0x1e68 .leaf) 0x3cc600307 0x1e69
  (.node .leaf 0x3d4000302 0x1eac .leaf)) 0x3d4000306 0x1eb6 (.node (.node .leaf 0x3d4200302
  0x1ead .leaf) 0x3d4200306 0x1eb7 .leaf))) 0x3d7000302 0x1ec6 (.node (.node (.node (.node .leaf
  0x3d7200302 0x1ec7 .leaf) 0x3d9800302 0x1ed8 (.node .leaf 0x3d9a00302 0x1ed9 .leaf)) 0x3e0000300
  0x1f02 (.node (.node .leaf 0x3e0000301 0x1f04 .leaf) 0x3e0000342 0x1f06 .leaf)) 0x3e0000345
  0x1f80 (.node (.node (.node .leaf 0x3e0200300 0x1f03 .leaf) 0x3e0200301 0x1f05 (.node .leaf
  0x3e0200342 0x1f07 .leaf)) 0x3e0200345 0x1f81 (.node (.node .leaf 0x3e0400345 0x1f82 .leaf)
  0x3e0600345 0x1f83 .leaf))))))

def composeTree_6 : Tree Nat :=
  (.node (.node (.node (.node (.node (.node (.node .leaf 0x3e0a00345 0x1f85 .leaf) 0x3e0c00345
  0x1f86 (.node .leaf 0x3e0e00345 0x1f87 .leaf)) 0x3e1000300 0x1f0a (.node (.node .leaf
  0x3e1000301 0x1f0c .leaf) 0x3e1000342 0x1f0e (.node .leaf 0x3e1000345 0x1f88 .leaf)))
  0x3e1200300 0x1f0b (.node (.node (.node .leaf 0x3e1200301 0x1f0d .leaf) 0x3e1200342 0x1f0f
  (.node .leaf 0x3e1200345 0x1f89 .leaf)) 0x3e1400345 0x1f8a (.node (.node .leaf 0x3e1600345
  0x1f8b .leaf) 0x3e1800345 0x1f8c .leaf))) 0x3e1a00345 0x1f8d (.node (.node (.node (.node .leaf
  0x3e1c00345 0x1f8e .leaf) 0x3e1e00345 0x1f8f (.node .leaf 0x3e2000300 0x1f12 .leaf)) 0x3e2000301
  0x1f14 (.node (.node .leaf 0x3e2200300 0x1f13 .leaf) 0x3e2200301 0x1f15 (.node .leaf 0x3e3000300
  0x1f1a .leaf))) 0x3e3000301 0x1f1c (.node (.node (.node .leaf 0x3e3200300 0x1f1b .leaf)
  0x3e3200301 0x1f1d (.node .leaf 0x3e4000300 0x1f22 .leaf)) 0x3e4000301 0x1f24 (.node (.node
  .leaf 0x3e4000342 0x1f26 .leaf) 0x3e4000345 0x1f90 .leaf)))) 0x3e4200300 0x1f23 (.node (.node
  (.node (.node (.node .leaf 0x3e4200301 0x1f25 .leaf) 0x3e4200342 0x1f27 (.node .leaf 0x3e4200345
  0x1f91 .leaf)) 0x3e4400345 0x1f92 (.node (.node .leaf 0x3e4600345 0x1f93 .leaf) 0x3e4800345
  0x1f94 (.node .leaf 0x3e4a00345 0x1f95 .leaf))) 0x3e4c00345 0x1f96 (.node (.node (.node .leaf
  0x3e4e00345 0x1f97 .leaf) 0x3e5000300 0x1f2a (.node .leaf 0x3e5000301 0x1f2c .leaf)) 0x3e5000342
  0x1f2e (.node (.node .leaf 0x3e5000345 0x1f98 .leaf) 0x3e5200300 0x1f2b .leaf))) 0x3e5200301
  0x1f2d (.node (.node (.node (.node .leaf 0x3e5200342 0x1f2f .leaf) 0x3e5200345 0x1f99 (.node
  .leaf 0x3e5400345 0x1f9a .leaf)) 0x3e5600345 0x1f9b (.node (.node .leaf 0x3e5800345 0x1f9c
  .leaf) 0x3e5a00345 0x1f9d .leaf)) 0x3e5c00345 0x1f9e (.node (.node (.node .leaf 0x3e5e00345
  0x1f9f .leaf) 0x3e6000300 0x1f32 (.node .leaf 0x3e6000301 0x1f34 .leaf)) 0x3e6000342 0x1f36
  (.node (.node .leaf 0x3e6200300 0x1f33 .leaf) 0x3e6200301 0x1f35 .leaf))))) 0x3e6200342 0x1f37
  (.node (.node (.node (.node (.node (.node .leaf 0x3e7000300 0x1f3a .leaf) 0x3e7000301 0x1f3c
  (.node .leaf 0x3e7000342 0x1f3e .leaf)) 0x3e7200300 0x1f3b (.node (.node .leaf 0x3e7200301
  0x1f3d .leaf) 0x3e7200342 0x1f3f (.node .leaf 0x3e8000300 0x1f42 .leaf))) 0x3e8000301 0x1f44
  (.node (.node (.node .leaf 0x3e8200300 0x1f43 .leaf) 0x3e8200301 0x1f45 (.node .leaf 0x3e9000300
  0x1f4a .leaf)) 0x3e9000301 0x1f4c (.node (.node .leaf 0x3e9200300 0x1f4b .leaf) 0x3e9200301
  0x1f4d .leaf))) 0x3ea000300 0x1f52 (.node (.node (.node (.node .leaf 0x3ea000301 0x1f54 .leaf)
  0x3ea000342 0x1f56 (.node .leaf 0x3ea200300 0x1f53 .leaf)) 0x3ea200301 0x1f55 (.node (.node
  .leaf 0x3ea200342 0x1f57 .leaf) 0x3eb200300 0x1f5b (.node .leaf 0x3eb200301 0x1f5d .leaf)))
  0x3eb200342 0x1f5f (.node (.node (.node .leaf 0x3ec000300 0x1f62 .leaf) 0x3ec000301 0x1f64
  (.node .leaf 0x3ec000342 0x1f66 .leaf)) 0x3ec000345 0x1fa0 (.node (.node .leaf 0x3ec200300
  0x1f63 .leaf) 0x3ec200301 0x1f65 .leaf)))) 0x3ec200342 0x1f67 (.node (.node (.node (.node (.node
  .leaf 0x3ec200345 0x1fa1 .leaf) 0x3ec400345 0x1fa2 (.node .leaf 0x3ec600345 0x1fa3 .leaf))
  0x3ec800345 0x1fa4 (.node (.node .leaf 0x3eca00345 0x1fa5 .leaf) 0x3ecc00345 0x1fa6 (.node .leaf
  0x3ece00345 0x1fa7 .leaf))) 0x3ed000300 0x1f6a (.node (.node (.node .leaf 0x3ed000301 0x1f6c
  .leaf) 0x3ed000342 0x1f6e (.node .leaf 0x3ed000345 0x1fa8 .leaf)) 0x3ed200300 0x1f6b (.node
  (.node .leaf 0x3ed200301 0x1f6d .leaf) 0x3ed200342 0x1f6f .leaf))) 0x3ed200345 0x1fa9 (.node
  (.node (.node (.node .leaf 0x3ed400345 0x1faa .leaf) 0x3ed600345 0x1fab (.node .leaf 0x3ed800345
  0x1fac .leaf)) 0x3eda00345 0x1fad (.node (.node .leaf 0x3edc00345 0x1fae .leaf) 0x3ede00345
  0x1faf .leaf)) 0x3ee000345 0x1fb2 (.node (.node (.node .leaf 0x3ee800345 0x1fc2 .leaf)
  0x3ef800345 0x1ff2 (.node .leaf 0x3f6c00345 0x1fb7 .leaf)) 0x3f7e00300 0x1fcd (.node (.node
  .leaf 0x3f7e00301 0x1fce .leaf) 0x3f7e00342 0x1fcf .leaf))))))

def composeTree_7 : Tree Nat :=
  (.node (.node (.node (.node (.node (.node (.node .leaf 0x3fec00345 0x1ff7 .leaf) 0x3ffc00300
  0x1fdd (.node .leaf 0x3ffc00301 0x1fde .leaf)) 0x3ffc00342 0x1fdf (.node (.node .leaf
  0x432000338 0x219a .leaf) 0x432400338 0x219b (.node .leaf 0x432800338 0x21ae .leaf)))
  0x43a000338 0x21cd (.node (.node (.node .leaf 0x43a400338 0x21cf .leaf) 0x43a800338 0x21ce
  (.node .leaf 0x440600338 0x2204 .leaf)) 0x441000338 0x2209 (.node (.node .leaf 0x441600338
  0x220c .leaf) 0x444600338 0x2224 .leaf))) 0x444a00338 0x2226 (.node (.node (.node (.node .leaf
  0x447800338 0x2241 .leaf) 0x448600338 0x2244 (.node .leaf 0x448a00338 0x2247 .leaf)) 0x449000338
  0x2249 (.node (.node .leaf 0x449a00338 0x226d .leaf) 0x44c200338 0x2262 (.node .leaf 0x44c800338
  0x2270 .leaf))) 0x44ca00338 0x2271 (.node (.node (.node .leaf 0x44e400338 0x2274 .leaf)
  0x44e600338 0x2275 (.node .leaf 0x44ec00338 0x2278 .leaf)) 0x44ee00338 0x2279 (.node (.node
  .leaf 0x44f400338 0x2280 .leaf) 0x44f600338 0x2281 .leaf)))) 0x44f800338 0x22e0 (.node (.node
  (.node (.node (.node .leaf 0x44fa00338 0x22e1 .leaf) 0x450400338 0x2284 (.node .leaf 0x450600338
  0x2285 .leaf)) 0x450c00338 0x2288 (.node (.node .leaf 0x450e00338 0x2289 .leaf) 0x452200338
  0x22e2 (.node .leaf 0x452400338 0x22e3 .leaf))) 0x454400338 0x22ac (.node (.node (.node .leaf
  0x455000338 0x22ad .leaf) 0x455200338 0x22ae (.node .leaf 0x455600338 0x22af .leaf)) 0x456400338
  0x22ea (.node (.node .leaf 0x456600338 0x22eb .leaf) 0x456800338 0x22ec .leaf))) 0x456a00338
  0x22ed (.node (.node (.node (.node .leaf 0x608c03099 0x3094 .leaf) 0x609603099 0x304c (.node
  .leaf 0x609a03099 0x304e .leaf)) 0x609e03099 0x3050 (.node (.node .leaf 0x60a203099 0x3052
  .leaf) 0x60a603099 0x3054 .leaf)) 0x60aa03099 0x3056 (.node (.node (.node .leaf 0x60ae03099
  0x3058 .leaf) 0x60b203099 0x305a (.node .leaf 0x60b603099 0x305c .leaf)) 0x60ba03099 0x305e
  (.node (.node .leaf 0x60be03099 0x3060 .leaf) 0x60c203099 0x3062 .leaf))))) 0x60c803099 0x3065
  (.node (.node (.node (.node (.node (.node .leaf 0x60cc03099 0x3067 .leaf) 0x60d003099 0x3069
  (.node .leaf 0x60de03099 0x3070 .leaf)) 0x60de0309a 0x3071 (.node (.node .leaf 0x60e403099
  0x3073 .leaf) 0x60e40309a 0x3074 (.node .leaf 0x60ea03099 0x3076 .leaf))) 0x60ea0309a 0x3077
  (.node (.node (.node .leaf 0x60f003099 0x3079 .leaf) 0x60f00309a 0x307a (.node .leaf 0x60f603099
  0x307c .leaf)) 0x60f60309a 0x307d (.node (.node .leaf 0x613a03099 0x309e .leaf) 0x614c03099
  0x30f4 .leaf))) 0x615603099 0x30ac (.node (.node (.node (.node .leaf 0x615a03099 0x30ae .leaf)
  0x615e03099 0x30b0 (.node .leaf 0x616203099 0x30b2 .leaf)) 0x616603099 0x30b4 (.node (.node
  .leaf 0x616a03099 0x30b6 .leaf) 0x616e03099 0x30b8 .leaf)) 0x617203099 0x30ba (.node (.node
  (.node .leaf 0x617603099 0x30bc .leaf) 0x617a03099 0x30be (.node .leaf 0x617e03099 0x30c0
  .leaf)) 0x618203099 0x30c2 (.node (.node .leaf 0x618803099 0x30c5 .leaf) 0x618c03099 0x30c7
  .leaf)))) 0x619003099 0x30c9 (.node (.node (.node (.node (.node .leaf 0x619e03099 0x30d0 .leaf)
  0x619e0309a 0x30d1 (.node .leaf 0x61a403099 0x30d3 .leaf)) 0x61a40309a 0x30d4 (.node (.node
  .leaf 0x61aa03099 0x30d6 .leaf) 0x61aa0309a 0x30d7 (.node .leaf 0x61b003099 0x30d9 .leaf)))
  0x61b00309a 0x30da (.node (.node (.node .leaf 0x61b603099 0x30dc .leaf) 0x61b60309a 0x30dd
  (.node .leaf 0x61de03099 0x30f7 .leaf)) 0x61e003099 0x30f8 (.node (.node .leaf 0x61e203099
  0x30f9 .leaf) 0x61e403099 0x30fa .leaf))) 0x61fa03099 0x30fe (.node (.node (.node (.node .leaf
  0x22132110ba 0x1109a .leaf) 0x22136110ba 0x1109c (.node .leaf 0x2214a110ba 0x110ab .leaf))
  0x2226211127 0x1112e (.node (.node .leaf 0x2226411127 0x1112f .leaf) 0x2268e1133e 0x1134b
  .leaf)) 0x2268e11357 0x1134c (.node (.node (.node .leaf 0x22972114b0 0x114bc .leaf) 0x22972114ba
  0x114bb (.node .leaf 0x22972114bd 0x114be .leaf)) 0x22b70115af 0x115ba (.node (.node .leaf
  0x22b72115af 0x115bb .leaf) 0x2326a11930 0x11938 .leaf))))))

/-- Primary composites: the pair `(k, b)` is keyed as `k * 0x200000 + b`. -/
def composeTree : Tree Nat :=
  (.node (.node (.node composeTree_0 0x9e0031b 0x1a0 composeTree_1) 0xcc00307 0x1e1f (.node
  composeTree_2 0xee00301 0x1e83 composeTree_3)) 0x35e00301 0x1ee8 (.node (.node composeTree_4
  0x82600301 0x403 composeTree_5) 0x3e0800345 0x1f84 (.node composeTree_6 0x3f8c00345 0x1fc7
  composeTree_7)))


/-- NFC_Quick_Check: 1 for No, 2 for Maybe. -/
def qcTree : RTree :=
  (.node (.node (.node (.node (.node (.node (.node .leaf 0x300 0x304 2 .leaf) 0x306 0x30c 2 (.node
  .leaf 0x30f 0x30f 2 .leaf)) 0x311 0x311 2 (.node (.node .leaf 0x313 0x314 2 .leaf) 0x31b 0x31b 2
  (.node .leaf 0x323 0x328 2 .leaf))) 0x32d 0x32e 2 (.node (.node (.node .leaf 0x330 0x331 2
  .leaf) 0x338 0x338 2 (.node .leaf 0x340 0x341 1 .leaf)) 0x342 0x342 2 (.node (.node .leaf 0x343
  0x344 1 .leaf) 0x345 0x345 2 .leaf))) 0x374 0x374 1 (.node (.node (.node (.node .leaf 0x37e
  0x37e 1 .leaf) 0x387 0x387 1 (.node .leaf 0x653 0x655 2 .leaf)) 0x93c 0x93c 2 (.node (.node
  .leaf 0x958 0x95f 1 .leaf) 0x9be 0x9be 2 .leaf)) 0x9d7 0x9d7 2 (.node (.node (.node .leaf 0x9dc
  0x9dd 1 .leaf) 0x9df 0x9df 1 (.node .leaf 0xa33 0xa33 1 .leaf)) 0xa36 0xa36 1 (.node (.node
  .leaf 0xa59 0xa5b 1 .leaf) 0xa5e 0xa5e 1 .leaf)))) 0xb3e 0xb3e 2 (.node (.node (.node (.node
  (.node .leaf 0xb56 0xb57 2 .leaf) 0xb5c 0xb5d 1 (.node .leaf 0xbbe 0xbbe 2 .leaf)) 0xbd7 0xbd7 2
  (.node (.node .leaf 0xc56 0xc56 2 .leaf) 0xcc2 0xcc2 2 (.node .leaf 0xcd5 0xcd6 2 .leaf))) 0xd3e
  0xd3e 2 (.node (.node (.node .leaf 0xd57 0xd57 2 .leaf) 0xdca 0xdca 2 (.node .leaf 0xdcf 0xdcf 2
  .leaf)) 0xddf 0xddf 2 (.node (.node .leaf 0xf43 0xf43 1 .leaf) 0xf4d 0xf4d 1 .leaf))) 0xf52
  0xf52 1 (.node (.node (.node (.node .leaf 0xf57 0xf57 1 .leaf) 0xf5c 0xf5c 1 (.node .leaf 0xf69
  0xf69 1 .leaf)) 0xf73 0xf73 1 (.node (.node .leaf 0xf75 0xf76 1 .leaf) 0xf78 0xf78 1 .leaf))
  0xf81 0xf81 1 (.node (.node (.node .leaf 0xf93 0xf93 1 .leaf) 0xf9d 0xf9d 1 (.node .leaf 0xfa2
  0xfa2 1 .leaf)) 0xfa7 0xfa7 1 (.node (.node .leaf 0xfac 0xfac 1 .leaf) 0xfb9 0xfb9 1 .leaf)))))
  0x102e 0x102e 2 (.node (.node (.node (.node (.node (.node .leaf 0x1161 0x1175 2 .leaf) 0x11a8
  0x11c2 2 (.node .leaf 0x1b35 0x1b35 2 .leaf)) 0x1f71 0x1f71 1 (.node (.node .leaf 0x1f73 0x1f73
  1 .leaf) 0x1f75 0x1f75 1 (.node .leaf 0x1f77 0x1f77 1 .leaf))) 0x1f79 0x1f79 1 (.node (.node
  (.node .leaf 0x1f7b 0x1f7b 1 .leaf) 0x1f7d 0x1f7d 1 (.node .leaf 0x1fbb 0x1fbb 1 .leaf)) 0x1fbe
  0x1fbe 1 (.node (.node .leaf 0x1fc9 0x1fc9 1 .leaf) 0x1fcb 0x1fcb 1 .leaf))) 0x1fd3 0x1fd3 1
  (.node (.node (.node (.node .leaf 0x1fdb 0x1fdb 1 .leaf) 0x1fe3 0x1fe3 1 (.node .leaf 0x1feb
  0x1feb 1 .leaf)) 0x1fee 0x1fef 1 (.node (.node .leaf 0x1ff9 0x1ff9 1 .leaf) 0x1ffb 0x1ffb 1
  .leaf)) 0x1ffd 0x1ffd 1 (.node (.node (.node .leaf 0x2000 0x2001 1 .leaf) 0x2126 0x2126 1 (.node
  .leaf 0x212a 0x212b 1 .leaf)) 0x2329 0x232a 1 (.node (.node .leaf 0x2adc 0x2adc 1 .leaf) 0x3099
  0x309a 2 .leaf)))) 0xf900 0xfa0d 1 (.node (.node (.node (.node (.node .leaf 0xfa10 0xfa10 1
  .leaf) 0xfa12 0xfa12 1 (.node .leaf 0xfa15 0xfa1e 1 .leaf)) 0xfa20 0xfa20 1 (.node (.node .leaf
  0xfa22 0xfa22 1 .leaf) 0xfa25 0xfa26 1 (.node .leaf 0xfa2a 0xfa6d 1 .leaf))) 0xfa70 0xfad9 1
  (.node (.node (.node .leaf 0xfb1d 0xfb1d 1 .leaf) 0xfb1f 0xfb1f 1 (.node .leaf 0xfb2a 0xfb36 1
  .leaf)) 0xfb38 0xfb3c 1 (.node (.node .leaf 0xfb3e 0xfb3e 1 .leaf) 0xfb40 0xfb41 1 .leaf)))
  0xfb43 0xfb44 1 (.node (.node (.node (.node .leaf 0xfb46 0xfb4e 1 .leaf) 0x110ba 0x110ba 2
  (.node .leaf 0x11127 0x11127 2 .leaf)) 0x1133e 0x1133e 2 (.node (.node .leaf 0x11357 0x11357 2
  .leaf) 0x114b0 0x114b0 2 .leaf)) 0x114ba 0x114ba 2 (.node (.node (.node .leaf 0x114bd 0x114bd 2
  .leaf) 0x115af 0x115af 2 (.node .leaf 0x11930 0x11930 2 .leaf)) 0x1d15e 0x1d164 1 (.node (.node
  .leaf 0x1d1bb 0x1d1c0 1 .leaf) 0x2f800 0x2fa1d 1 .leaf))))))

def classTree_0 : Tree (List Nat) :=
  (.node (.node (.node (.node (.node (.node (.node .leaf 0xa8 [0x0, 0x1, 0x2] .leaf) 0xaf [0x0,
  0x1, 0x2] .leaf) 0xb4 [0x0, 0x1, 0x2] (.node .leaf 0xb8 [0x0, 0x1, 0x2] .leaf)) 0xc0 [0x0, 0x1,
  0x2] (.node (.node .leaf 0xc1 [0x0, 0x1, 0x2] .leaf) 0xc2 [0x0, 0x1, 0x2] (.node .leaf 0xc3
  [0x0, 0x1, 0x2] .leaf))) 0xc4 [0x0, 0x1, 0x2] (.node (.node (.node .leaf 0xc5 [0x0, 0x1, 0x2]
  .leaf) 0xc7 [0x0, 0x1, 0x2] (.node .leaf 0xc8 [0x0, 0x1, 0x2] .leaf)) 0xc9 [0x0, 0x1, 0x2]
  (.node (.node .leaf 0xca [0x0, 0x1, 0x2] .leaf) 0xcb [0x0, 0x1, 0x2] (.node .leaf 0xcc [0x0,
  0x1, 0x2] .leaf)))) 0xcd [0x0, 0x1, 0x2] (.node (.node (.node (.node (.node .leaf 0xce [0x0,
  0x1, 0x2] .leaf) 0xcf [0x0, 0x1, 0x2] .leaf) 0xd1 [0x0, 0x1, 0x2] (.node .leaf 0xd2 [0x0, 0x1,
  0x2] .leaf)) 0xd3 [0x0, 0x1, 0x2] (.node (.node .leaf 0xd4 [0x0, 0x1, 0x2] .leaf) 0xd5 [0x0,
  0x1, 0x2] (.node .leaf 0xd6 [0x0, 0x1, 0x2] .leaf))) 0xd9 [0x0, 0x1, 0x2] (.node (.node (.node
  .leaf 0xda [0x0, 0x1, 0x2] .leaf) 0xdb [0x0, 0x1, 0x2] (.node .leaf 0xdc [0x0, 0x1, 0x2] .leaf))
  0xdd [0x0, 0x1, 0x2] (.node (.node .leaf 0xe0 [0x0, 0x1, 0x2] .leaf) 0xe1 [0x0, 0x1, 0x2] (.node
  .leaf 0xe2 [0x0, 0x1, 0x2] .leaf))))) 0xe3 [0x0, 0x1, 0x2] (.node (.node (.node (.node (.node
  (.node .leaf 0xe4 [0x0, 0x1, 0x2] .leaf) 0xe5 [0x0, 0x1, 0x2] .leaf) 0xe7 [0x0, 0x1, 0x2] (.node
  .leaf 0xe8 [0x0, 0x1, 0x2] .leaf)) 0xe9 [0x0, 0x1, 0x2] (.node (.node .leaf 0xea [0x0, 0x1, 0x2]
  .leaf) 0xeb [0x0, 0x1, 0x2] (.node .leaf 0xec [0x0, 0x1, 0x2] .leaf))) 0xed [0x0, 0x1, 0x2]
  (.node (.node (.node .leaf 0xee [0x0, 0x1, 0x2] .leaf) 0xef [0x0, 0x1, 0x2] (.node .leaf 0xf1
  [0x0, 0x1, 0x2] .leaf)) 0xf2 [0x0, 0x1, 0x2] (.node (.node .leaf 0xf3 [0x0, 0x1, 0x2] .leaf)
  0xf4 [0x0, 0x1, 0x2] (.node .leaf 0xf5 [0x0, 0x1, 0x2] .leaf)))) 0xf6 [0x0, 0x1, 0x2] (.node
  (.node (.node (.node (.node .leaf 0xf9 [0x0, 0x1, 0x2] .leaf) 0xfa [0x0, 0x1, 0x2] .leaf) 0xfb
  [0x0, 0x1, 0x2] (.node .leaf 0xfc [0x0, 0x1, 0x2] .leaf)) 0xfd [0x0, 0x1, 0x2] (.node (.node
  .leaf 0xff [0x0, 0x1, 0x2] .leaf) 0x100 [0x0, 0x1, 0x2] (.node .leaf 0x101 [0x0, 0x1, 0x2]
  .leaf))) 0x102 [0x0, 0x1, 0x2] (.node (.node (.node .leaf 0x103 [0x0, 0x1, 0x2] .leaf) 0x104
  [0x0, 0x1, 0x2] (.node .leaf 0x105 [0x0, 0x1, 0x2] .leaf)) 0x106 [0x0, 0x1, 0x2] (.node (.node
  .leaf 0x107 [0x0, 0x1, 0x2] .leaf) 0x108 [0x0, 0x1, 0x2] (.node .leaf 0x109 [0x0, 0x1, 0x2]
  .leaf))))))

def classTree_1 : Tree (List Nat) :=
  (.node (.node (.node (.node (.node (.node (.node .leaf 0x10b [0x0, 0x1, 0x2] .leaf) 0x10c [0x0,
  0x1, 0x2] .leaf) 0x10d [0x0, 0x1, 0x2] (.node .leaf 0x10e [0x0, 0x1, 0x2] .leaf)) 0x10f [0x0,
  0x1, 0x2] (.node (.node .leaf 0x112 [0x0, 0x1, 0x2] .leaf) 0x113 [0x0, 0x1, 0x2] (.node .leaf
  0x114 [0x0, 0x1, 0x2] .leaf))) 0x115 [0x0, 0x1, 0x2] (.node (.node (.node .leaf 0x116 [0x0, 0x1,
  0x2] .leaf) 0x117 [0x0, 0x1, 0x2] (.node .leaf 0x118 [0x0, 0x1, 0x2] .leaf)) 0x119 [0x0, 0x1,
  0x2] (.node (.node .leaf 0x11a [0x0, 0x1, 0x2] .leaf) 0x11b [0x0, 0x1, 0x2] (.node .leaf 0x11c
  [0x0, 0x1, 0x2] .leaf)))) 0x11d [0x0, 0x1, 0x2] (.node (.node (.node (.node (.node .leaf 0x11e
  [0x0, 0x1, 0x2] .leaf) 0x11f [0x0, 0x1, 0x2] .leaf) 0x120 [0x0, 0x1, 0x2] (.node .leaf 0x121
  [0x0, 0x1, 0x2] .leaf)) 0x122 [0x0, 0x1, 0x2] (.node (.node .leaf 0x123 [0x0, 0x1, 0x2] .leaf)
  0x124 [0x0, 0x1, 0x2] (.node .leaf 0x125 [0x0, 0x1, 0x2] .leaf))) 0x128 [0x0, 0x1, 0x2] (.node
  (.node (.node .leaf 0x129 [0x0, 0x1, 0x2] .leaf) 0x12a [0x0, 0x1, 0x2] (.node .leaf 0x12b [0x0,
  0x1, 0x2] .leaf)) 0x12c [0x0, 0x1, 0x2] (.node (.node .leaf 0x12d [0x0, 0x1, 0x2] .leaf) 0x12e
  [0x0, 0x1, 0x2] (.node .leaf 0x12f [0x0, 0x1, 0x2] .leaf))))) 0x130 [0x0, 0x1, 0x2] (.node
  (.node (.node (.node (.node (.node .leaf 0x134 [0x0, 0x1, 0x2] .leaf) 0x135 [0x0, 0x1, 0x2]
  .leaf) 0x136 [0x0, 0x1, 0x2] (.node .leaf 0x137 [0x0, 0x1, 0x2] .leaf)) 0x139 [0x0, 0x1, 0x2]
  (.node (.node .leaf 0x13a [0x0, 0x1, 0x2] .leaf) 0x13b [0x0, 0x1, 0x2] (.node .leaf 0x13c [0x0,
  0x1, 0x2] .leaf))) 0x13d [0x0, 0x1, 0x2] (.node (.node (.node .leaf 0x13e [0x0, 0x1, 0x2] .leaf)
  0x143 [0x0, 0x1, 0x2] (.node .leaf 0x144 [0x0, 0x1, 0x2] .leaf)) 0x145 [0x0, 0x1, 0x2] (.node
  (.node .leaf 0x146 [0x0, 0x1, 0x2] .leaf) 0x147 [0x0, 0x1, 0x2] (.node .leaf 0x148 [0x0, 0x1,
  0x2] .leaf)))) 0x14c [0x0, 0x1, 0x2] (.node (.node (.node (.node (.node .leaf 0x14d [0x0, 0x1,
  0x2] .leaf) 0x14e [0x0, 0x1, 0x2] .leaf) 0x14f [0x0, 0x1, 0x2] (.node .leaf 0x150 [0x0, 0x1,
  0x2] .leaf)) 0x151 [0x0, 0x1, 0x2] (.node (.node .leaf 0x154 [0x0, 0x1, 0x2] .leaf) 0x155 [0x0,
  0x1, 0x2] (.node .leaf 0x156 [0x0, 0x1, 0x2] .leaf))) 0x157 [0x0, 0x1, 0x2] (.node (.node (.node
  .leaf 0x158 [0x0, 0x1, 0x2] .leaf) 0x159 [0x0, 0x1, 0x2] (.node .leaf 0x15a [0x0, 0x1, 0x2]
  .leaf)) 0x15b [0x0, 0x1, 0x2] (.node (.node .leaf 0x15c [0x0, 0x1, 0x2] .leaf) 0x15d [0x0, 0x1,
  0x2] (.node .leaf 0x15e [0x0, 0x1, 0x2] .leaf))))))

def classTree_2 : Tree (List Nat) :=
  (.node (.node (.node (.node (.node (.node (.node .leaf 0x160 [0x0, 0x1, 0x2] .leaf) 0x161 [0x0,
  0x1, 0x2] .leaf) 0x162 [0x0, 0x1, 0x2] (.node .leaf 0x163 [0x0, 0x1, 0x2] .leaf)) 0x164 [0x0,
  0x1, 0x2] (.node (.node .leaf 0x165 [0x0, 0x1, 0x2] .leaf) 0x168 [0x0, 0x1, 0x2] (.node .leaf
  0x169 [0x0, 0x1, 0x2] .leaf))) 0x16a [0x0, 0x1, 0x2] (.node (.node (.node .leaf 0x16b [0x0, 0x1,
  0x2] .leaf) 0x16c [0x0, 0x1, 0x2] (.node .leaf 0x16d [0x0, 0x1, 0x2] .leaf)) 0x16e [0x0, 0x1,
  0x2] (.node (.node .leaf 0x16f [0x0, 0x1, 0x2] .leaf) 0x170 [0x0, 0x1, 0x2] (.node .leaf 0x171
  [0x0, 0x1, 0x2] .leaf)))) 0x172 [0x0, 0x1, 0x2] (.node (.node (.node (.node (.node .leaf 0x173
  [0x0, 0x1, 0x2] .leaf) 0x174 [0x0, 0x1, 0x2] .leaf) 0x175 [0x0, 0x1, 0x2] (.node .leaf 0x176
  [0x0, 0x1, 0x2] .leaf)) 0x177 [0x0, 0x1, 0x2] (.node (.node .leaf 0x178 [0x0, 0x1, 0x2] .leaf)
  0x179 [0x0, 0x1, 0x2] (.node .leaf 0x17a [0x0, 0x1, 0x2] .leaf))) 0x17b [0x0, 0x1, 0x2] (.node
  (.node (.node .leaf 0x17c [0x0, 0x1, 0x2] .leaf) 0x17d [0x0, 0x1, 0x2] (.node .leaf 0x17e [0x0,
  0x1, 0x2] .leaf)) 0x1a0 [0x0, 0x1, 0x2] (.node (.node .leaf 0x1a1 [0x0, 0x1, 0x2] .leaf) 0x1af
  [0x0, 0x1, 0x2] (.node .leaf 0x1b0 [0x0, 0x1, 0x2] .leaf))))) 0x1c4 [0x0, 0x1, 0x3] (.node
  (.node (.node (.node (.node (.node .leaf 0x1c5 [0x0, 0x1, 0x3] .leaf) 0x1c6 [0x0, 0x1, 0x3]
  .leaf) 0x1cd [0x0, 0x1, 0x2] (.node .leaf 0x1ce [0x0, 0x1, 0x2] .leaf)) 0x1cf [0x0, 0x1, 0x2]
  (.node (.node .leaf 0x1d0 [0x0, 0x1, 0x2] .leaf) 0x1d1 [0x0, 0x1, 0x2] (.node .leaf 0x1d2 [0x0,
  0x1, 0x2] .leaf))) 0x1d3 [0x0, 0x1, 0x2] (.node (.node (.node .leaf 0x1d4 [0x0, 0x1, 0x2] .leaf)
  0x1d5 [0x0, 0x2, 0x3] (.node .leaf 0x1d6 [0x0, 0x2, 0x3] .leaf)) 0x1d7 [0x0, 0x2, 0x3] (.node
  (.node .leaf 0x1d8 [0x0, 0x2, 0x3] .leaf) 0x1d9 [0x0, 0x2, 0x3] (.node .leaf 0x1da [0x0, 0x2,
  0x3] .leaf)))) 0x1db [0x0, 0x2, 0x3] (.node (.node (.node (.node (.node .leaf 0x1dc [0x0, 0x2,
  0x3] .leaf) 0x1de [0x0, 0x2, 0x3] .leaf) 0x1df [0x0, 0x2, 0x3] (.node .leaf 0x1e0 [0x0, 0x2,
  0x3] .leaf)) 0x1e1 [0x0, 0x2, 0x3] (.node (.node .leaf 0x1e2 [0x0, 0x1, 0x2] .leaf) 0x1e3 [0x0,
  0x1, 0x2] (.node .leaf 0x1e6 [0x0, 0x1, 0x2] .leaf))) 0x1e7 [0x0, 0x1, 0x2] (.node (.node (.node
  .leaf 0x1e8 [0x0, 0x1, 0x2] .leaf) 0x1e9 [0x0, 0x1, 0x2] (.node .leaf 0x1ea [0x0, 0x1, 0x2]
  .leaf)) 0x1eb [0x0, 0x1, 0x2] (.node (.node .leaf 0x1ec [0x0, 0x2, 0x3] .leaf) 0x1ed [0x0, 0x2,
  0x3] (.node .leaf 0x1ee [0x0, 0x1, 0x2] .leaf))))))

def classTree_3 : Tree (List Nat) :=
  (.node (.node (.node (.node (.node (.node (.node .leaf 0x1f0 [0x0, 0x1, 0x2] .leaf) 0x1f4 [0x0,
  0x1, 0x2] .leaf) 0x1f5 [0x0, 0x1, 0x2] (.node .leaf 0x1f8 [0x0, 0x1, 0x2] .leaf)) 0x1f9 [0x0,
  0x1, 0x2] (.node (.node .leaf 0x1fa [0x0, 0x2, 0x3] .leaf) 0x1fb [0x0, 0x2, 0x3] (.node .leaf
  0x1fc [0x0, 0x1, 0x2] .leaf))) 0x1fd [0x0, 0x1, 0x2] (.node (.node (.node .leaf 0x1fe [0x0, 0x1,
  0x2] .leaf) 0x1ff [0x0, 0x1, 0x2] (.node .leaf 0x200 [0x0, 0x1, 0x2] .leaf)) 0x201 [0x0, 0x1,
  0x2] (.node (.node .leaf 0x202 [0x0, 0x1, 0x2] .leaf) 0x203 [0x0, 0x1, 0x2] (.node .leaf 0x204
  [0x0, 0x1, 0x2] .leaf)))) 0x205 [0x0, 0x1, 0x2] (.node (.node (.node (.node (.node .leaf 0x206
  [0x0, 0x1, 0x2] .leaf) 0x207 [0x0, 0x1, 0x2] .leaf) 0x208 [0x0, 0x1, 0x2] (.node .leaf 0x209
  [0x0, 0x1, 0x2] .leaf)) 0x20a [0x0, 0x1, 0x2] (.node (.node .leaf 0x20b [0x0, 0x1, 0x2] .leaf)
  0x20c [0x0, 0x1, 0x2] (.node .leaf 0x20d [0x0, 0x1, 0x2] .leaf))) 0x20e [0x0, 0x1, 0x2] (.node
  (.node (.node .leaf 0x20f [0x0, 0x1, 0x2] .leaf) 0x210 [0x0, 0x1, 0x2] (.node .leaf 0x211 [0x0,
  0x1, 0x2] .leaf)) 0x212 [0x0, 0x1, 0x2] (.node (.node .leaf 0x213 [0x0, 0x1, 0x2] .leaf) 0x214
  [0x0, 0x1, 0x2] (.node .leaf 0x215 [0x0, 0x1, 0x2] .leaf))))) 0x216 [0x0, 0x1, 0x2] (.node
  (.node (.node (.node (.node (.node .leaf 0x217 [0x0, 0x1, 0x2] .leaf) 0x218 [0x0, 0x1, 0x2]
  .leaf) 0x219 [0x0, 0x1, 0x2] (.node .leaf 0x21a [0x0, 0x1, 0x2] .leaf)) 0x21b [0x0, 0x1, 0x2]
  (.node (.node .leaf 0x21e [0x0, 0x1, 0x2] .leaf) 0x21f [0x0, 0x1, 0x2] (.node .leaf 0x226 [0x0,
  0x1, 0x2] .leaf))) 0x227 [0x0, 0x1, 0x2] (.node (.node (.node .leaf 0x228 [0x0, 0x1, 0x2] .leaf)
  0x229 [0x0, 0x1, 0x2] (.node .leaf 0x22a [0x0, 0x2, 0x3] .leaf)) 0x22b [0x0, 0x2, 0x3] (.node
  (.node .leaf 0x22c [0x0, 0x2, 0x3] .leaf) 0x22d [0x0, 0x2, 0x3] (.node .leaf 0x22e [0x0, 0x1,
  0x2] .leaf)))) 0x22f [0x0, 0x1, 0x2] (.node (.node (.node (.node (.node .leaf 0x230 [0x0, 0x2,
  0x3] .leaf) 0x231 [0x0, 0x2, 0x3] .leaf) 0x232 [0x0, 0x1, 0x2] (.node .leaf 0x233 [0x0, 0x1,
  0x2] .leaf)) 0x2d8 [0x0, 0x1, 0x2] (.node (.node .leaf 0x2d9 [0x0, 0x1, 0x2] .leaf) 0x2da [0x0,
  0x1, 0x2] (.node .leaf 0x2db [0x0, 0x1, 0x2] .leaf))) 0x2dc [0x0, 0x1, 0x2] (.node (.node (.node
  .leaf 0x2dd [0x0, 0x1, 0x2] .leaf) 0x344 [0x2, 0x2, 0x2] (.node .leaf 0x37a [0x0, 0x1, 0x2]
  .leaf)) 0x384 [0x0, 0x1, 0x2] (.node (.node .leaf 0x385 [0x0, 0x2, 0x3] .leaf) 0x386 [0x0, 0x1,
  0x2] (.node .leaf 0x388 [0x0, 0x1, 0x2] .leaf))))))

def classTree_4 : Tree (List Nat) :=
  (.node (.node (.node (.node (.node (.node (.node .leaf 0x38a [0x0, 0x1, 0x2] .leaf) 0x38c [0x0,
  0x1, 0x2] .leaf) 0x38e [0x0, 0x1, 0x2] (.node .leaf 0x38f [0x0, 0x1, 0x2] .leaf)) 0x390 [0x0,
  0x2, 0x3] (.node (.node .leaf 0x3aa [0x0, 0x1, 0x2] .leaf) 0x3ab [0x0, 0x1, 0x2] (.node .leaf
  0x3ac [0x0, 0x1, 0x2] .leaf))) 0x3ad [0x0, 0x1, 0x2] (.node (.node (.node .leaf 0x3ae [0x0, 0x1,
  0x2] .leaf) 0x3af [0x0, 0x1, 0x2] (.node .leaf 0x3b0 [0x0, 0x2, 0x3] .leaf)) 0x3ca [0x0, 0x1,
  0x2] (.node (.node .leaf 0x3cb [0x0, 0x1, 0x2] .leaf) 0x3cc [0x0, 0x1, 0x2] (.node .leaf 0x3cd
  [0x0, 0x1, 0x2] .leaf)))) 0x3ce [0x0, 0x1, 0x2] (.node (.node (.node (.node (.node .leaf 0x3d3
  [0x0, 0x1, 0x2] .leaf) 0x3d4 [0x0, 0x1, 0x2] .leaf) 0x400 [0x0, 0x1, 0x2] (.node .leaf 0x401
  [0x0, 0x1, 0x2] .leaf)) 0x403 [0x0, 0x1, 0x2] (.node (.node .leaf 0x407 [0x0, 0x1, 0x2] .leaf)
  0x40c [0x0, 0x1, 0x2] (.node .leaf 0x40d [0x0, 0x1, 0x2] .leaf))) 0x40e [0x0, 0x1, 0x2] (.node
  (.node (.node .leaf 0x419 [0x0, 0x1, 0x2] .leaf) 0x439 [0x0, 0x1, 0x2] (.node .leaf 0x450 [0x0,
  0x1, 0x2] .leaf)) 0x451 [0x0, 0x1, 0x2] (.node (.node .leaf 0x453 [0x0, 0x1, 0x2] .leaf) 0x457
  [0x0, 0x1, 0x2] (.node .leaf 0x45c [0x0, 0x1, 0x2] .leaf))))) 0x45d [0x0, 0x1, 0x2] (.node
  (.node (.node (.node (.node (.node .leaf 0x45e [0x0, 0x1, 0x2] .leaf) 0x476 [0x0, 0x1, 0x2]
  .leaf) 0x477 [0x0, 0x1, 0x2] (.node .leaf 0x4c1 [0x0, 0x1, 0x2] .leaf)) 0x4c2 [0x0, 0x1, 0x2]
  (.node (.node .leaf 0x4d0 [0x0, 0x1, 0x2] .leaf) 0x4d1 [0x0, 0x1, 0x2] (.node .leaf 0x4d2 [0x0,
  0x1, 0x2] .leaf))) 0x4d3 [0x0, 0x1, 0x2] (.node (.node (.node .leaf 0x4d6 [0x0, 0x1, 0x2] .leaf)
  0x4d7 [0x0, 0x1, 0x2] (.node .leaf 0x4da [0x0, 0x1, 0x2] .leaf)) 0x4db [0x0, 0x1, 0x2] (.node
  (.node .leaf 0x4dc [0x0, 0x1, 0x2] .leaf) 0x4dd [0x0, 0x1, 0x2] (.node .leaf 0x4de [0x0, 0x1,
  0x2] .leaf)))) 0x4df [0x0, 0x1, 0x2] (.node (.node (.node (.node (.node .leaf 0x4e2 [0x0, 0x1,
  0x2] .leaf) 0x4e3 [0x0, 0x1, 0x2] .leaf) 0x4e4 [0x0, 0x1, 0x2] (.node .leaf 0x4e5 [0x0, 0x1,
  0x2] .leaf)) 0x4e6 [0x0, 0x1, 0x2] (.node (.node .leaf 0x4e7 [0x0, 0x1, 0x2] .leaf) 0x4ea [0x0,
  0x1, 0x2] (.node .leaf 0x4eb [0x0, 0x1, 0x2] .leaf))) 0x4ec [0x0, 0x1, 0x2] (.node (.node (.node
  .leaf 0x4ed [0x0, 0x1, 0x2] .leaf) 0x4ee [0x0, 0x1, 0x2] (.node .leaf 0x4ef [0x0, 0x1, 0x2]
  .leaf)) 0x4f0 [0x0, 0x1, 0x2] (.node (.node .leaf 0x4f1 [0x0, 0x1, 0x2] .leaf) 0x4f2 [0x0, 0x1,
  0x2] (.node .leaf 0x4f3 [0x0, 0x1, 0x2] .leaf))))))

def classTree_5 : Tree (List Nat) :=
  (.node (.node (.node (.node (.node (.node (.node .leaf 0x4f5 [0x0, 0x1, 0x2] .leaf) 0x4f8 [0x0,
  0x1, 0x2] .leaf) 0x4f9 [0x0, 0x1, 0x2] (.node .leaf 0x622 [0x0, 0x1, 0x2] .leaf)) 0x623 [0x0,
  0x1, 0x2] (.node (.node .leaf 0x624 [0x0, 0x1, 0x2] .leaf) 0x625 [0x0, 0x1, 0x2] (.node .leaf
  0x626 [0x0, 0x1, 0x2] .leaf))) 0x6c0 [0x0, 0x1, 0x2] (.node (.node (.node .leaf 0x6c2 [0x0, 0x1,
  0x2] .leaf) 0x6d3 [0x0, 0x1, 0x2] (.node .leaf 0x929 [0x0, 0x1, 0x2] .leaf)) 0x931 [0x0, 0x1,
  0x2] (.node (.node .leaf 0x934 [0x0, 0x1, 0x2] .leaf) 0x958 [0x0, 0x1, 0x2] (.node .leaf 0x959
  [0x0, 0x1, 0x2] .leaf)))) 0x95a [0x0, 0x1, 0x2] (.node (.node (.node (.node (.node .leaf 0x95b
  [0x0, 0x1, 0x2] .leaf) 0x95c [0x0, 0x1, 0x2] .leaf) 0x95d [0x0, 0x1, 0x2] (.node .leaf 0x95e
  [0x0, 0x1, 0x2] .leaf)) 0x95f [0x0, 0x1, 0x2] (.node (.node .leaf 0x9dc [0x0, 0x1, 0x2] .leaf)
  0x9dd [0x0, 0x1, 0x2] (.node .leaf 0x9df [0x0, 0x1, 0x2] .leaf))) 0xa33 [0x0, 0x1, 0x2] (.node
  (.node (.node .leaf 0xa36 [0x0, 0x1, 0x2] .leaf) 0xa59 [0x0, 0x1, 0x2] (.node .leaf 0xa5a [0x0,
  0x1, 0x2] .leaf)) 0xa5b [0x0, 0x1, 0x2] (.node (.node .leaf 0xa5e [0x0, 0x1, 0x2] .leaf) 0xb5c
  [0x0, 0x1, 0x2] (.node .leaf 0xb5d [0x0, 0x1, 0x2] .leaf))))) 0xc48 [0x0, 0x1, 0x2] (.node
  (.node (.node (.node (.node (.node .leaf 0xdda [0x0, 0x1, 0x2] .leaf) 0xddd [0x0, 0x1, 0x3]
  .leaf) 0xf73 [0x2, 0x2, 0x2] (.node .leaf 0xf75 [0x2, 0x2, 0x2] .leaf)) 0xf76 [0x0, 0x1, 0x2]
  (.node (.node .leaf 0xf77 [0x0, 0x2, 0x3] .leaf) 0xf78 [0x0, 0x1, 0x2] (.node .leaf 0xf79 [0x0,
  0x2, 0x3] .leaf))) 0xf81 [0x2, 0x2, 0x2] (.node (.node (.node .leaf 0x1e00 [0x0, 0x1, 0x2]
  .leaf) 0x1e01 [0x0, 0x1, 0x2] (.node .leaf 0x1e02 [0x0, 0x1, 0x2] .leaf)) 0x1e03 [0x0, 0x1, 0x2]
  (.node (.node .leaf 0x1e04 [0x0, 0x1, 0x2] .leaf) 0x1e05 [0x0, 0x1, 0x2] (.node .leaf 0x1e06
  [0x0, 0x1, 0x2] .leaf)))) 0x1e07 [0x0, 0x1, 0x2] (.node (.node (.node (.node (.node .leaf 0x1e08
  [0x0, 0x2, 0x3] .leaf) 0x1e09 [0x0, 0x2, 0x3] .leaf) 0x1e0a [0x0, 0x1, 0x2] (.node .leaf 0x1e0b
  [0x0, 0x1, 0x2] .leaf)) 0x1e0c [0x0, 0x1, 0x2] (.node (.node .leaf 0x1e0d [0x0, 0x1, 0x2] .leaf)
  0x1e0e [0x0, 0x1, 0x2] (.node .leaf 0x1e0f [0x0, 0x1, 0x2] .leaf))) 0x1e10 [0x0, 0x1, 0x2]
  (.node (.node (.node .leaf 0x1e11 [0x0, 0x1, 0x2] .leaf) 0x1e12 [0x0, 0x1, 0x2] (.node .leaf
  0x1e13 [0x0, 0x1, 0x2] .leaf)) 0x1e14 [0x0, 0x2, 0x3] (.node (.node .leaf 0x1e15 [0x0, 0x2, 0x3]
  .leaf) 0x1e16 [0x0, 0x2, 0x3] (.node .leaf 0x1e17 [0x0, 0x2, 0x3] .leaf))))))

def classTree_6 : Tree (List Nat) :=
  (.node (.node (.node (.node (.node (.node (.node .leaf 0x1e19 [0x0, 0x1, 0x2] .leaf) 0x1e1a
  [0x0, 0x1, 0x2] .leaf) 0x1e1b [0x0, 0x1, 0x2] (.node .leaf 0x1e1c [0x0, 0x2, 0x3] .leaf)) 0x1e1d
  [0x0, 0x2, 0x3] (.node (.node .leaf 0x1e1e [0x0, 0x1, 0x2] .leaf) 0x1e1f [0x0, 0x1, 0x2] (.node
  .leaf 0x1e20 [0x0, 0x1, 0x2] .leaf))) 0x1e21 [0x0, 0x1, 0x2] (.node (.node (.node .leaf 0x1e22
  [0x0, 0x1, 0x2] .leaf) 0x1e23 [0x0, 0x1, 0x2] (.node .leaf 0x1e24 [0x0, 0x1, 0x2] .leaf)) 0x1e25
  [0x0, 0x1, 0x2] (.node (.node .leaf 0x1e26 [0x0, 0x1, 0x2] .leaf) 0x1e27 [0x0, 0x1, 0x2] (.node
  .leaf 0x1e28 [0x0, 0x1, 0x2] .leaf)))) 0x1e29 [0x0, 0x1, 0x2] (.node (.node (.node (.node (.node
  .leaf 0x1e2a [0x0, 0x1, 0x2] .leaf) 0x1e2b [0x0, 0x1, 0x2] .leaf) 0x1e2c [0x0, 0x1, 0x2] (.node
  .leaf 0x1e2d [0x0, 0x1, 0x2] .leaf)) 0x1e2e [0x0, 0x2, 0x3] (.node (.node .leaf 0x1e2f [0x0,
  0x2, 0x3] .leaf) 0x1e30 [0x0, 0x1, 0x2] (.node .leaf 0x1e31 [0x0, 0x1, 0x2] .leaf))) 0x1e32
  [0x0, 0x1, 0x2] (.node (.node (.node .leaf 0x1e33 [0x0, 0x1, 0x2] .leaf) 0x1e34 [0x0, 0x1, 0x2]
  (.node .leaf 0x1e35 [0x0, 0x1, 0x2] .leaf)) 0x1e36 [0x0, 0x1, 0x2] (.node (.node .leaf 0x1e37
  [0x0, 0x1, 0x2] .leaf) 0x1e38 [0x0, 0x2, 0x3] (.node .leaf 0x1e39 [0x0, 0x2, 0x3] .leaf)))))
  0x1e3a [0x0, 0x1, 0x2] (.node (.node (.node (.node (.node (.node .leaf 0x1e3b [0x0, 0x1, 0x2]
  .leaf) 0x1e3c [0x0, 0x1, 0x2] .leaf) 0x1e3d [0x0, 0x1, 0x2] (.node .leaf 0x1e3e [0x0, 0x1, 0x2]
  .leaf)) 0x1e3f [0x0, 0x1, 0x2] (.node (.node .leaf 0x1e40 [0x0, 0x1, 0x2] .leaf) 0x1e41 [0x0,
  0x1, 0x2] (.node .leaf 0x1e42 [0x0, 0x1, 0x2] .leaf))) 0x1e43 [0x0, 0x1, 0x2] (.node (.node
  (.node .leaf 0x1e44 [0x0, 0x1, 0x2] .leaf) 0x1e45 [0x0, 0x1, 0x2] (.node .leaf 0x1e46 [0x0, 0x1,
  0x2] .leaf)) 0x1e47 [0x0, 0x1, 0x2] (.node (.node .leaf 0x1e48 [0x0, 0x1, 0x2] .leaf) 0x1e49
  [0x0, 0x1, 0x2] (.node .leaf 0x1e4a [0x0, 0x1, 0x2] .leaf)))) 0x1e4b [0x0, 0x1, 0x2] (.node
  (.node (.node (.node (.node .leaf 0x1e4c [0x0, 0x2, 0x3] .leaf) 0x1e4d [0x0, 0x2, 0x3] .leaf)
  0x1e4e [0x0, 0x2, 0x3] (.node .leaf 0x1e4f [0x0, 0x2, 0x3] .leaf)) 0x1e50 [0x0, 0x2, 0x3] (.node
  (.node .leaf 0x1e51 [0x0, 0x2, 0x3] .leaf) 0x1e52 [0x0, 0x2, 0x3] (.node .leaf 0x1e53 [0x0, 0x2,
  0x3] .leaf))) 0x1e54 [0x0, 0x1, 0x2] (.node (.node (.node .leaf 0x1e55 [0x0, 0x1, 0x2] .leaf)
  0x1e56 [0x0, 0x1, 0x2] (.node .leaf 0x1e57 [0x0, 0x1, 0x2] .leaf)) 0x1e58 [0x0, 0x1, 0x2] (.node
  (.node .leaf 0x1e59 [0x0, 0x1, 0x2] .leaf) 0x1e5a [0x0, 0x1, 0x2] (.node .leaf 0x1e5b [0x0, 0x1,
  0x2] .leaf))))))

def classTree_7 : Tree (List Nat) :=
  (.node (.node (.node (.node (.node (.node (.node .leaf 0x1e5d [0x0, 0x2, 0x3] .leaf) 0x1e5e
  [0x0, 0x1, 0x2] .leaf) 0x1e5f [0x0, 0x1, 0x2] (.node .leaf 0x1e60 [0x0, 0x1, 0x2] .leaf)) 0x1e61
  [0x0, 0x1, 0x2] (.node (.node .leaf 0x1e62 [0x0, 0x1, 0x2] .leaf) 0x1e63 [0x0, 0x1, 0x2] (.node
  .leaf 0x1e64 [0x0, 0x2, 0x3] .leaf))) 0x1e65 [0x0, 0x2, 0x3] (.node (.node (.node .leaf 0x1e66
  [0x0, 0x2, 0x3] .leaf) 0x1e67 [0x0, 0x2, 0x3] (.node .leaf 0x1e68 [0x0, 0x2, 0x3] .leaf)) 0x1e69
  [0x0, 0x2, 0x3] (.node (.node .leaf 0x1e6a [0x0, 0x1, 0x2] .leaf) 0x1e6b [0x0, 0x1, 0x2] (.node
  .leaf 0x1e6c [0x0, 0x1, 0x2] .leaf)))) 0x1e6d [0x0, 0x1, 0x2] (.node (.node (.node (.node (.node
  .leaf 0x1e6e [0x0, 0x1, 0x2] .leaf) 0x1e6f [0x0, 0x1, 0x2] .leaf) 0x1e70 [0x0, 0x1, 0x2] (.node
  .leaf 0x1e71 [0x0, 0x1, 0x2] .leaf)) 0x1e72 [0x0, 0x1, 0x2] (.node (.node .leaf 0x1e73 [0x0,
  0x1, 0x2] .leaf) 0x1e74 [0x0, 0x1, 0x2] (.node .leaf 0x1e75 [0x0, 0x1, 0x2] .leaf))) 0x1e76
  [0x0, 0x1, 0x2] (.node (.node (.node .leaf 0x1e77 [0x0, 0x1, 0x2] .leaf) 0x1e78 [0x0, 0x2, 0x3]
  (.node .leaf 0x1e79 [0x0, 0x2, 0x3] .leaf)) 0x1e7a [0x0, 0x2, 0x3] (.node (.node .leaf 0x1e7b
  [0x0, 0x2, 0x3] .leaf) 0x1e7c [0x0, 0x1, 0x2] (.node .leaf 0x1e7d [0x0, 0x1, 0x2] .leaf)))))
  0x1e7e [0x0, 0x1, 0x2] (.node (.node (.node (.node (.node (.node .leaf 0x1e7f [0x0, 0x1, 0x2]
  .leaf) 0x1e80 [0x0, 0x1, 0x2] .leaf) 0x1e81 [0x0, 0x1, 0x2] (.node .leaf 0x1e82 [0x0, 0x1, 0x2]
  .leaf)) 0x1e83 [0x0, 0x1, 0x2] (.node (.node .leaf 0x1e84 [0x0, 0x1, 0x2] .leaf) 0x1e85 [0x0,
  0x1, 0x2] (.node .leaf 0x1e86 [0x0, 0x1, 0x2] .leaf))) 0x1e87 [0x0, 0x1, 0x2] (.node (.node
  (.node .leaf 0x1e88 [0x0, 0x1, 0x2] .leaf) 0x1e89 [0x0, 0x1, 0x2] (.node .leaf 0x1e8a [0x0, 0x1,
  0x2] .leaf)) 0x1e8b [0x0, 0x1, 0x2] (.node (.node .leaf 0x1e8c [0x0, 0x1, 0x2] .leaf) 0x1e8d
  [0x0, 0x1, 0x2] (.node .leaf 0x1e8e [0x0, 0x1, 0x2] .leaf)))) 0x1e8f [0x0, 0x1, 0x2] (.node
  (.node (.node (.node (.node .leaf 0x1e90 [0x0, 0x1, 0x2] .leaf) 0x1e91 [0x0, 0x1, 0x2] .leaf)
  0x1e92 [0x0, 0x1, 0x2] (.node .leaf 0x1e93 [0x0, 0x1, 0x2] .leaf)) 0x1e94 [0x0, 0x1, 0x2] (.node
  (.node .leaf 0x1e95 [0x0, 0x1, 0x2] .leaf) 0x1e96 [0x0, 0x1, 0x2] (.node .leaf 0x1e97 [0x0, 0x1,
  0x2] .leaf))) 0x1e98 [0x0, 0x1, 0x2] (.node (.node (.node .leaf 0x1e99 [0x0, 0x1, 0x2] .leaf)
  0x1e9b [0x0, 0x1, 0x2] (.node .leaf 0x1ea0 [0x0, 0x1, 0x2] .leaf)) 0x1ea1 [0x0, 0x1, 0x2] (.node
  (.node .leaf 0x1ea2 [0x0, 0x1, 0x2] .leaf) 0x1ea3 [0x0, 0x1, 0x2] (.node .leaf 0x1ea4 [0x0, 0x2,
  0x3] .leaf))))))

def classTree_8 : Tree (List Nat) :=
  (.node (.node (.node (.node (.node (.node (.node .leaf 0x1ea6 [0x0, 0x2, 0x3] .leaf) 0x1ea7
  [0x0, 0x2, 0x3] .leaf) 0x1ea8 [0x0, 0x2, 0x3] (.node .leaf 0x1ea9 [0x0, 0x2, 0x3] .leaf)) 0x1eaa
  [0x0, 0x2, 0x3] (.node (.node .leaf 0x1eab [0x0, 0x2, 0x3] .leaf) 0x1eac [0x0, 0x2, 0x3] (.node
  .leaf 0x1ead [0x0, 0x2, 0x3] .leaf))) 0x1eae [0x0, 0x2, 0x3] (.node (.node (.node .leaf 0x1eaf
  [0x0, 0x2, 0x3] .leaf) 0x1eb0 [0x0, 0x2, 0x3] (.node .leaf 0x1eb1 [0x0, 0x2, 0x3] .leaf)) 0x1eb2
  [0x0, 0x2, 0x3] (.node (.node .leaf 0x1eb3 [0x0, 0x2, 0x3] .leaf) 0x1eb4 [0x0, 0x2, 0x3] (.node
  .leaf 0x1eb5 [0x0, 0x2, 0x3] .leaf)))) 0x1eb6 [0x0, 0x2, 0x3] (.node (.node (.node (.node (.node
  .leaf 0x1eb7 [0x0, 0x2, 0x3] .leaf) 0x1eb8 [0x0, 0x1, 0x2] .leaf) 0x1eb9 [0x0, 0x1, 0x2] (.node
  .leaf 0x1eba [0x0, 0x1, 0x2] .leaf)) 0x1ebb [0x0, 0x1, 0x2] (.node (.node .leaf 0x1ebc [0x0,
  0x1, 0x2] .leaf) 0x1ebd [0x0, 0x1, 0x2] (.node .leaf 0x1ebe [0x0, 0x2, 0x3] .leaf))) 0x1ebf
  [0x0, 0x2, 0x3] (.node (.node (.node .leaf 0x1ec0 [0x0, 0x2, 0x3] .leaf) 0x1ec1 [0x0, 0x2, 0x3]
  (.node .leaf 0x1ec2 [0x0, 0x2, 0x3] .leaf)) 0x1ec3 [0x0, 0x2, 0x3] (.node (.node .leaf 0x1ec4
  [0x0, 0x2, 0x3] .leaf) 0x1ec5 [0x0, 0x2, 0x3] (.node .leaf 0x1ec6 [0x0, 0x2, 0x3] .leaf)))))
  0x1ec7 [0x0, 0x2, 0x3] (.node (.node (.node (.node (.node (.node .leaf 0x1ec8 [0x0, 0x1, 0x2]
  .leaf) 0x1ec9 [0x0, 0x1, 0x2] .leaf) 0x1eca [0x0, 0x1, 0x2] (.node .leaf 0x1ecb [0x0, 0x1, 0x2]
  .leaf)) 0x1ecc [0x0, 0x1, 0x2] (.node (.node .leaf 0x1ecd [0x0, 0x1, 0x2] .leaf) 0x1ece [0x0,
  0x1, 0x2] (.node .leaf 0x1ecf [0x0, 0x1, 0x2] .leaf))) 0x1ed0 [0x0, 0x2, 0x3] (.node (.node
  (.node .leaf 0x1ed1 [0x0, 0x2, 0x3] .leaf) 0x1ed2 [0x0, 0x2, 0x3] (.node .leaf 0x1ed3 [0x0, 0x2,
  0x3] .leaf)) 0x1ed4 [0x0, 0x2, 0x3] (.node (.node .leaf 0x1ed5 [0x0, 0x2, 0x3] .leaf) 0x1ed6
  [0x0, 0x2, 0x3] (.node .leaf 0x1ed7 [0x0, 0x2, 0x3] .leaf)))) 0x1ed8 [0x0, 0x2, 0x3] (.node
  (.node (.node (.node (.node .leaf 0x1ed9 [0x0, 0x2, 0x3] .leaf) 0x1eda [0x0, 0x2, 0x3] .leaf)
  0x1edb [0x0, 0x2, 0x3] (.node .leaf 0x1edc [0x0, 0x2, 0x3] .leaf)) 0x1edd [0x0, 0x2, 0x3] (.node
  (.node .leaf 0x1ede [0x0, 0x2, 0x3] .leaf) 0x1edf [0x0, 0x2, 0x3] (.node .leaf 0x1ee0 [0x0, 0x2,
  0x3] .leaf))) 0x1ee1 [0x0, 0x2, 0x3] (.node (.node (.node .leaf 0x1ee2 [0x0, 0x2, 0x3] .leaf)
  0x1ee3 [0x0, 0x2, 0x3] (.node .leaf 0x1ee4 [0x0, 0x1, 0x2] .leaf)) 0x1ee5 [0x0, 0x1, 0x2] (.node
  (.node .leaf 0x1ee6 [0x0, 0x1, 0x2] .leaf) 0x1ee7 [0x0, 0x1, 0x2] (.node .leaf 0x1ee8 [0x0, 0x2,
  0x3] .leaf))))))

def classTree_9 : Tree (List Nat) :=
  (.node (.node (.node (.node (.node (.node (.node .leaf 0x1eea [0x0, 0x2, 0x3] .leaf) 0x1eeb
  [0x0, 0x2, 0x3] .leaf) 0x1eec [0x0, 0x2, 0x3] (.node .leaf 0x1eed [0x0, 0x2, 0x3] .leaf)) 0x1eee
  [0x0, 0x2, 0x3] (.node (.node .leaf 0x1eef [0x0, 0x2, 0x3] .leaf) 0x1ef0 [0x0, 0x2, 0x3] (.node
  .leaf 0x1ef1 [0x0, 0x2, 0x3] .leaf))) 0x1ef2 [0x0, 0x1, 0x2] (.node (.node (.node .leaf 0x1ef3
  [0x0, 0x1, 0x2] .leaf) 0x1ef4 [0x0, 0x1, 0x2] (.node .leaf 0x1ef5 [0x0, 0x1, 0x2] .leaf)) 0x1ef6
  [0x0, 0x1, 0x2] (.node (.node .leaf 0x1ef7 [0x0, 0x1, 0x2] .leaf) 0x1ef8 [0x0, 0x1, 0x2] (.node
  .leaf 0x1ef9 [0x0, 0x1, 0x2] .leaf)))) 0x1f00 [0x0, 0x1, 0x2] (.node (.node (.node (.node (.node
  .leaf 0x1f01 [0x0, 0x1, 0x2] .leaf) 0x1f02 [0x0, 0x2, 0x3] .leaf) 0x1f03 [0x0, 0x2, 0x3] (.node
  .leaf 0x1f04 [0x0, 0x2, 0x3] .leaf)) 0x1f05 [0x0, 0x2, 0x3] (.node (.node .leaf 0x1f06 [0x0,
  0x2, 0x3] .leaf) 0x1f07 [0x0, 0x2, 0x3] (.node .leaf 0x1f08 [0x0, 0x1, 0x2] .leaf))) 0x1f09
  [0x0, 0x1, 0x2] (.node (.node (.node .leaf 0x1f0a [0x0, 0x2, 0x3] .leaf) 0x1f0b [0x0, 0x2, 0x3]
  (.node .leaf 0x1f0c [0x0, 0x2, 0x3] .leaf)) 0x1f0d [0x0, 0x2, 0x3] (.node (.node .leaf 0x1f0e
  [0x0, 0x2, 0x3] .leaf) 0x1f0f [0x0, 0x2, 0x3] (.node .leaf 0x1f10 [0x0, 0x1, 0x2] .leaf)))))
  0x1f11 [0x0, 0x1, 0x2] (.node (.node (.node (.node (.node (.node .leaf 0x1f12 [0x0, 0x2, 0x3]
  .leaf) 0x1f13 [0x0, 0x2, 0x3] .leaf) 0x1f14 [0x0, 0x2, 0x3] (.node .leaf 0x1f15 [0x0, 0x2, 0x3]
  .leaf)) 0x1f18 [0x0, 0x1, 0x2] (.node (.node .leaf 0x1f19 [0x0, 0x1, 0x2] .leaf) 0x1f1a [0x0,
  0x2, 0x3] (.node .leaf 0x1f1b [0x0, 0x2, 0x3] .leaf))) 0x1f1c [0x0, 0x2, 0x3] (.node (.node
  (.node .leaf 0x1f1d [0x0, 0x2, 0x3] .leaf) 0x1f20 [0x0, 0x1, 0x2] (.node .leaf 0x1f21 [0x0, 0x1,
  0x2] .leaf)) 0x1f22 [0x0, 0x2, 0x3] (.node (.node .leaf 0x1f23 [0x0, 0x2, 0x3] .leaf) 0x1f24
  [0x0, 0x2, 0x3] (.node .leaf 0x1f25 [0x0, 0x2, 0x3] .leaf)))) 0x1f26 [0x0, 0x2, 0x3] (.node
  (.node (.node (.node (.node .leaf 0x1f27 [0x0, 0x2, 0x3] .leaf) 0x1f28 [0x0, 0x1, 0x2] .leaf)
  0x1f29 [0x0, 0x1, 0x2] (.node .leaf 0x1f2a [0x0, 0x2, 0x3] .leaf)) 0x1f2b [0x0, 0x2, 0x3] (.node
  (.node .leaf 0x1f2c [0x0, 0x2, 0x3] .leaf) 0x1f2d [0x0, 0x2, 0x3] (.node .leaf 0x1f2e [0x0, 0x2,
  0x3] .leaf))) 0x1f2f [0x0, 0x2, 0x3] (.node (.node (.node .leaf 0x1f30 [0x0, 0x1, 0x2] .leaf)
  0x1f31 [0x0, 0x1, 0x2] (.node .leaf 0x1f32 [0x0, 0x2, 0x3] .leaf)) 0x1f33 [0x0, 0x2, 0x3] (.node
  (.node .leaf 0x1f34 [0x0, 0x2, 0x3] .leaf) 0x1f35 [0x0, 0x2, 0x3] (.node .leaf 0x1f36 [0x0, 0x2,
  0x3] .leaf))))))

def classTree_10 : Tree (List Nat) :=
  (.node (.node (.node (.node (.node (.node (.node .leaf 0x1f38 [0x0, 0x1, 0x2] .leaf) 0x1f39
  [0x0, 0x1, 0x2] .leaf) 0x1f3a [0x0, 0x2, 0x3] (.node .leaf 0x1f3b [0x0, 0x2, 0x3] .leaf)) 0x1f3c
  [0x0, 0x2, 0x3] (.node (.node .leaf 0x1f3d [0x0, 0x2, 0x3] .leaf) 0x1f3e [0x0, 0x2, 0x3] (.node
  .leaf 0x1f3f [0x0, 0x2, 0x3] .leaf))) 0x1f40 [0x0, 0x1, 0x2] (.node (.node (.node .leaf 0x1f41
  [0x0, 0x1, 0x2] .leaf) 0x1f42 [0x0, 0x2, 0x3] (.node .leaf 0x1f43 [0x0, 0x2, 0x3] .leaf)) 0x1f44
  [0x0, 0x2, 0x3] (.node (.node .leaf 0x1f45 [0x0, 0x2, 0x3] .leaf) 0x1f48 [0x0, 0x1, 0x2] (.node
  .leaf 0x1f49 [0x0, 0x1, 0x2] .leaf)))) 0x1f4a [0x0, 0x2, 0x3] (.node (.node (.node (.node (.node
  .leaf 0x1f4b [0x0, 0x2, 0x3] .leaf) 0x1f4c [0x0, 0x2, 0x3] .leaf) 0x1f4d [0x0, 0x2, 0x3] (.node
  .leaf 0x1f50 [0x0, 0x1, 0x2] .leaf)) 0x1f51 [0x0, 0x1, 0x2] (.node (.node .leaf 0x1f52 [0x0,
  0x2, 0x3] .leaf) 0x1f53 [0x0, 0x2, 0x3] (.node .leaf 0x1f54 [0x0, 0x2, 0x3] .leaf))) 0x1f55
  [0x0, 0x2, 0x3] (.node (.node (.node .leaf 0x1f56 [0x0, 0x2, 0x3] .leaf) 0x1f57 [0x0, 0x2, 0x3]
  (.node .leaf 0x1f59 [0x0, 0x1, 0x2] .leaf)) 0x1f5b [0x0, 0x2, 0x3] (.node (.node .leaf 0x1f5d
  [0x0, 0x2, 0x3] .leaf) 0x1f5f [0x0, 0x2, 0x3] (.node .leaf 0x1f60 [0x0, 0x1, 0x2] .leaf)))))
  0x1f61 [0x0, 0x1, 0x2] (.node (.node (.node (.node (.node (.node .leaf 0x1f62 [0x0, 0x2, 0x3]
  .leaf) 0x1f63 [0x0, 0x2, 0x3] .leaf) 0x1f64 [0x0, 0x2, 0x3] (.node .leaf 0x1f65 [0x0, 0x2, 0x3]
  .leaf)) 0x1f66 [0x0, 0x2, 0x3] (.node (.node .leaf 0x1f67 [0x0, 0x2, 0x3] .leaf) 0x1f68 [0x0,
  0x1, 0x2] (.node .leaf 0x1f69 [0x0, 0x1, 0x2] .leaf))) 0x1f6a [0x0, 0x2, 0x3] (.node (.node
  (.node .leaf 0x1f6b [0x0, 0x2, 0x3] .leaf) 0x1f6c [0x0, 0x2, 0x3] (.node .leaf 0x1f6d [0x0, 0x2,
  0x3] .leaf)) 0x1f6e [0x0, 0x2, 0x3] (.node (.node .leaf 0x1f6f [0x0, 0x2, 0x3] .leaf) 0x1f70
  [0x0, 0x1, 0x2] (.node .leaf 0x1f71 [0x0, 0x1, 0x2] .leaf)))) 0x1f72 [0x0, 0x1, 0x2] (.node
  (.node (.node (.node (.node .leaf 0x1f73 [0x0, 0x1, 0x2] .leaf) 0x1f74 [0x0, 0x1, 0x2] .leaf)
  0x1f75 [0x0, 0x1, 0x2] (.node .leaf 0x1f76 [0x0, 0x1, 0x2] .leaf)) 0x1f77 [0x0, 0x1, 0x2] (.node
  (.node .leaf 0x1f78 [0x0, 0x1, 0x2] .leaf) 0x1f79 [0x0, 0x1, 0x2] (.node .leaf 0x1f7a [0x0, 0x1,
  0x2] .leaf))) 0x1f7b [0x0, 0x1, 0x2] (.node (.node (.node .leaf 0x1f7c [0x0, 0x1, 0x2] .leaf)
  0x1f7d [0x0, 0x1, 0x2] (.node .leaf 0x1f80 [0x0, 0x2, 0x3] .leaf)) 0x1f81 [0x0, 0x2, 0x3] (.node
  (.node .leaf 0x1f82 [0x0, 0x3, 0x4] .leaf) 0x1f83 [0x0, 0x3, 0x4] (.node .leaf 0x1f84 [0x0, 0x3,
  0x4] .leaf))))))

def classTree_11 : Tree (List Nat) :=
  (.node (.node (.node (.node (.node (.node (.node .leaf 0x1f86 [0x0, 0x3, 0x4] .leaf) 0x1f87
  [0x0, 0x3, 0x4] .leaf) 0x1f88 [0x0, 0x2, 0x3] (.node .leaf 0x1f89 [0x0, 0x2, 0x3] .leaf)) 0x1f8a
  [0x0, 0x3, 0x4] (.node (.node .leaf 0x1f8b [0x0, 0x3, 0x4] .leaf) 0x1f8c [0x0, 0x3, 0x4] (.node
  .leaf 0x1f8d [0x0, 0x3, 0x4] .leaf))) 0x1f8e [0x0, 0x3, 0x4] (.node (.node (.node .leaf 0x1f8f
  [0x0, 0x3, 0x4] .leaf) 0x1f90 [0x0, 0x2, 0x3] (.node .leaf 0x1f91 [0x0, 0x2, 0x3] .leaf)) 0x1f92
  [0x0, 0x3, 0x4] (.node (.node .leaf 0x1f93 [0x0, 0x3, 0x4] .leaf) 0x1f94 [0x0, 0x3, 0x4] (.node
  .leaf 0x1f95 [0x0, 0x3, 0x4] .leaf)))) 0x1f96 [0x0, 0x3, 0x4] (.node (.node (.node (.node (.node
  .leaf 0x1f97 [0x0, 0x3, 0x4] .leaf) 0x1f98 [0x0, 0x2, 0x3] .leaf) 0x1f99 [0x0, 0x2, 0x3] (.node
  .leaf 0x1f9a [0x0, 0x3, 0x4] .leaf)) 0x1f9b [0x0, 0x3, 0x4] (.node (.node .leaf 0x1f9c [0x0,
  0x3, 0x4] .leaf) 0x1f9d [0x0, 0x3, 0x4] (.node .leaf 0x1f9e [0x0, 0x3, 0x4] .leaf))) 0x1f9f
  [0x0, 0x3, 0x4] (.node (.node (.node .leaf 0x1fa0 [0x0, 0x2, 0x3] .leaf) 0x1fa1 [0x0, 0x2, 0x3]
  (.node .leaf 0x1fa2 [0x0, 0x3, 0x4] .leaf)) 0x1fa3 [0x0, 0x3, 0x4] (.node (.node .leaf 0x1fa4
  [0x0, 0x3, 0x4] .leaf) 0x1fa5 [0x0, 0x3, 0x4] (.node .leaf 0x1fa6 [0x0, 0x3, 0x4] .leaf)))))
  0x1fa7 [0x0, 0x3, 0x4] (.node (.node (.node (.node (.node (.node .leaf 0x1fa8 [0x0, 0x2, 0x3]
  .leaf) 0x1fa9 [0x0, 0x2, 0x3] .leaf) 0x1faa [0x0, 0x3, 0x4] (.node .leaf 0x1fab [0x0, 0x3, 0x4]
  .leaf)) 0x1fac [0x0, 0x3, 0x4] (.node (.node .leaf 0x1fad [0x0, 0x3, 0x4] .leaf) 0x1fae [0x0,
  0x3, 0x4] (.node .leaf 0x1faf [0x0, 0x3, 0x4] .leaf))) 0x1fb0 [0x0, 0x1, 0x2] (.node (.node
  (.node .leaf 0x1fb1 [0x0, 0x1, 0x2] .leaf) 0x1fb2 [0x0, 0x2, 0x3] (.node .leaf 0x1fb3 [0x0, 0x1,
  0x2] .leaf)) 0x1fb4 [0x0, 0x2, 0x3] (.node (.node .leaf 0x1fb6 [0x0, 0x1, 0x2] .leaf) 0x1fb7
  [0x0, 0x2, 0x3] (.node .leaf 0x1fb8 [0x0, 0x1, 0x2] .leaf)))) 0x1fb9 [0x0, 0x1, 0x2] (.node
  (.node (.node (.node (.node .leaf 0x1fba [0x0, 0x1, 0x2] .leaf) 0x1fbb [0x0, 0x1, 0x2] .leaf)
  0x1fbc [0x0, 0x1, 0x2] (.node .leaf 0x1fbd [0x0, 0x1, 0x2] .leaf)) 0x1fbf [0x0, 0x1, 0x2] (.node
  (.node .leaf 0x1fc0 [0x0, 0x1, 0x2] .leaf) 0x1fc1 [0x0, 0x2, 0x3] (.node .leaf 0x1fc2 [0x0, 0x2,
  0x3] .leaf))) 0x1fc3 [0x0, 0x1, 0x2] (.node (.node (.node .leaf 0x1fc4 [0x0, 0x2, 0x3] .leaf)
  0x1fc6 [0x0, 0x1, 0x2] (.node .leaf 0x1fc7 [0x0, 0x2, 0x3] .leaf)) 0x1fc8 [0x0, 0x1, 0x2] (.node
  (.node .leaf 0x1fc9 [0x0, 0x1, 0x2] .leaf) 0x1fca [0x0, 0x1, 0x2] (.node .leaf 0x1fcb [0x0, 0x1,
  0x2] .leaf))))))

def classTree_12 : Tree (List Nat) :=
  (.node (.node (.node (.node (.node (.node (.node .leaf 0x1fcd [0x0, 0x2, 0x3] .leaf) 0x1fce
  [0x0, 0x2, 0x3] .leaf) 0x1fcf [0x0, 0x2, 0x3] (.node .leaf 0x1fd0 [0x0, 0x1, 0x2] .leaf)) 0x1fd1
  [0x0, 0x1, 0x2] (.node (.node .leaf 0x1fd2 [0x0, 0x2, 0x3] .leaf) 0x1fd3 [0x0, 0x2, 0x3] (.node
  .leaf 0x1fd6 [0x0, 0x1, 0x2] .leaf))) 0x1fd7 [0x0, 0x2, 0x3] (.node (.node (.node .leaf 0x1fd8
  [0x0, 0x1, 0x2] .leaf) 0x1fd9 [0x0, 0x1, 0x2] (.node .leaf 0x1fda [0x0, 0x1, 0x2] .leaf)) 0x1fdb
  [0x0, 0x1, 0x2] (.node (.node .leaf 0x1fdd [0x0, 0x2, 0x3] .leaf) 0x1fde [0x0, 0x2, 0x3] (.node
  .leaf 0x1fdf [0x0, 0x2, 0x3] .leaf)))) 0x1fe0 [0x0, 0x1, 0x2] (.node (.node (.node (.node (.node
  .leaf 0x1fe1 [0x0, 0x1, 0x2] .leaf) 0x1fe2 [0x0, 0x2, 0x3] .leaf) 0x1fe3 [0x0, 0x2, 0x3] (.node
  .leaf 0x1fe4 [0x0, 0x1, 0x2] .leaf)) 0x1fe5 [0x0, 0x1, 0x2] (.node (.node .leaf 0x1fe6 [0x0,
  0x1, 0x2] .leaf) 0x1fe7 [0x0, 0x2, 0x3] (.node .leaf 0x1fe8 [0x0, 0x1, 0x2] .leaf))) 0x1fe9
  [0x0, 0x1, 0x2] (.node (.node (.node .leaf 0x1fea [0x0, 0x1, 0x2] .leaf) 0x1feb [0x0, 0x1, 0x2]
  (.node .leaf 0x1fec [0x0, 0x1, 0x2] .leaf)) 0x1fed [0x0, 0x2, 0x3] (.node (.node .leaf 0x1fee
  [0x0, 0x2, 0x3] .leaf) 0x1ff2 [0x0, 0x2, 0x3] (.node .leaf 0x1ff3 [0x0, 0x1, 0x2] .leaf)))))
  0x1ff4 [0x0, 0x2, 0x3] (.node (.node (.node (.node (.node (.node .leaf 0x1ff6 [0x0, 0x1, 0x2]
  .leaf) 0x1ff7 [0x0, 0x2, 0x3] .leaf) 0x1ff8 [0x0, 0x1, 0x2] (.node .leaf 0x1ff9 [0x0, 0x1, 0x2]
  .leaf)) 0x1ffa [0x0, 0x1, 0x2] (.node (.node .leaf 0x1ffb [0x0, 0x1, 0x2] .leaf) 0x1ffc [0x0,
  0x1, 0x2] (.node .leaf 0x1ffd [0x0, 0x1, 0x2] .leaf))) 0x1ffe [0x0, 0x1, 0x2] (.node (.node
  (.node .leaf 0x2017 [0x0, 0x1, 0x2] .leaf) 0x203e [0x0, 0x1, 0x2] (.node .leaf 0x212b [0x0, 0x1,
  0x2] .leaf)) 0x219a [0x0, 0x1, 0x2] (.node (.node .leaf 0x219b [0x0, 0x1, 0x2] .leaf) 0x21ae
  [0x0, 0x1, 0x2] (.node .leaf 0x21cd [0x0, 0x1, 0x2] .leaf)))) 0x21ce [0x0, 0x1, 0x2] (.node
  (.node (.node (.node (.node .leaf 0x21cf [0x0, 0x1, 0x2] .leaf) 0x2204 [0x0, 0x1, 0x2] .leaf)
  0x2209 [0x0, 0x1, 0x2] (.node .leaf 0x220c [0x0, 0x1, 0x2] .leaf)) 0x2224 [0x0, 0x1, 0x2] (.node
  (.node .leaf 0x2226 [0x0, 0x1, 0x2] .leaf) 0x2241 [0x0, 0x1, 0x2] (.node .leaf 0x2244 [0x0, 0x1,
  0x2] .leaf))) 0x2247 [0x0, 0x1, 0x2] (.node (.node (.node .leaf 0x2249 [0x0, 0x1, 0x2] .leaf)
  0x2260 [0x0, 0x1, 0x2] (.node .leaf 0x2262 [0x0, 0x1, 0x2] .leaf)) 0x226d [0x0, 0x1, 0x2] (.node
  (.node .leaf 0x226e [0x0, 0x1, 0x2] .leaf) 0x226f [0x0, 0x1, 0x2] (.node .leaf 0x2270 [0x0, 0x1,
  0x2] .leaf))))))

def classTree_13 : Tree (List Nat) :=
  (.node (.node (.node (.node (.node (.node (.node .leaf 0x2274 [0x0, 0x1, 0x2] .leaf) 0x2275
  [0x0, 0x1, 0x2] .leaf) 0x2278 [0x0, 0x1, 0x2] (.node .leaf 0x2279 [0x0, 0x1, 0x2] .leaf)) 0x2280
  [0x0, 0x1, 0x2] (.node (.node .leaf 0x2281 [0x0, 0x1, 0x2] .leaf) 0x2284 [0x0, 0x1, 0x2] (.node
  .leaf 0x2285 [0x0, 0x1, 0x2] .leaf))) 0x2288 [0x0, 0x1, 0x2] (.node (.node (.node .leaf 0x2289
  [0x0, 0x1, 0x2] .leaf) 0x22ac [0x0, 0x1, 0x2] (.node .leaf 0x22ad [0x0, 0x1, 0x2] .leaf)) 0x22ae
  [0x0, 0x1, 0x2] (.node (.node .leaf 0x22af [0x0, 0x1, 0x2] .leaf) 0x22e0 [0x0, 0x1, 0x2] (.node
  .leaf 0x22e1 [0x0, 0x1, 0x2] .leaf)))) 0x22e2 [0x0, 0x1, 0x2] (.node (.node (.node (.node (.node
  .leaf 0x22e3 [0x0, 0x1, 0x2] .leaf) 0x22ea [0x0, 0x1, 0x2] .leaf) 0x22eb [0x0, 0x1, 0x2] (.node
  .leaf 0x22ec [0x0, 0x1, 0x2] .leaf)) 0x22ed [0x0, 0x1, 0x2] (.node (.node .leaf 0x2adc [0x0,
  0x1, 0x2] .leaf) 0x304c [0x0, 0x1, 0x2] (.node .leaf 0x304e [0x0, 0x1, 0x2] .leaf))) 0x3050
  [0x0, 0x1, 0x2] (.node (.node (.node .leaf 0x3052 [0x0, 0x1, 0x2] .leaf) 0x3054 [0x0, 0x1, 0x2]
  (.node .leaf 0x3056 [0x0, 0x1, 0x2] .leaf)) 0x3058 [0x0, 0x1, 0x2] (.node (.node .leaf 0x305a
  [0x0, 0x1, 0x2] .leaf) 0x305c [0x0, 0x1, 0x2] (.node .leaf 0x305e [0x0, 0x1, 0x2] .leaf)))))
  0x3060 [0x0, 0x1, 0x2] (.node (.node (.node (.node (.node (.node .leaf 0x3062 [0x0, 0x1, 0x2]
  .leaf) 0x3065 [0x0, 0x1, 0x2] .leaf) 0x3067 [0x0, 0x1, 0x2] (.node .leaf 0x3069 [0x0, 0x1, 0x2]
  .leaf)) 0x3070 [0x0, 0x1, 0x2] (.node (.node .leaf 0x3071 [0x0, 0x1, 0x2] .leaf) 0x3073 [0x0,
  0x1, 0x2] (.node .leaf 0x3074 [0x0, 0x1, 0x2] .leaf))) 0x3076 [0x0, 0x1, 0x2] (.node (.node
  (.node .leaf 0x3077 [0x0, 0x1, 0x2] .leaf) 0x3079 [0x0, 0x1, 0x2] (.node .leaf 0x307a [0x0, 0x1,
  0x2] .leaf)) 0x307c [0x0, 0x1, 0x2] (.node (.node .leaf 0x307d [0x0, 0x1, 0x2] .leaf) 0x3094
  [0x0, 0x1, 0x2] (.node .leaf 0x309b [0x0, 0x1, 0x2] .leaf)))) 0x309c [0x0, 0x1, 0x2] (.node
  (.node (.node (.node (.node .leaf 0x309e [0x0, 0x1, 0x2] .leaf) 0x30ac [0x0, 0x1, 0x2] .leaf)
  0x30ae [0x0, 0x1, 0x2] (.node .leaf 0x30b0 [0x0, 0x1, 0x2] .leaf)) 0x30b2 [0x0, 0x1, 0x2] (.node
  (.node .leaf 0x30b4 [0x0, 0x1, 0x2] .leaf) 0x30b6 [0x0, 0x1, 0x2] (.node .leaf 0x30b8 [0x0, 0x1,
  0x2] .leaf))) 0x30ba [0x0, 0x1, 0x2] (.node (.node (.node .leaf 0x30bc [0x0, 0x1, 0x2] .leaf)
  0x30be [0x0, 0x1, 0x2] (.node .leaf 0x30c0 [0x0, 0x1, 0x2] .leaf)) 0x30c2 [0x0, 0x1, 0x2] (.node
  (.node .leaf 0x30c5 [0x0, 0x1, 0x2] .leaf) 0x30c7 [0x0, 0x1, 0x2] (.node .leaf 0x30c9 [0x0, 0x1,
  0x2] .leaf))))))

def classTree_14 : Tree (List Nat) :=
  (.node (.node (.node (.node (.node (.node (.node .leaf 0x30d1 [0x0, 0x1, 0x2] .leaf) 0x30d3
  [0x0, 0x1, 0x2] .leaf) 0x30d4 [0x0, 0x1, 0x2] (.node .leaf 0x30d6 [0x0, 0x1, 0x2] .leaf)) 0x30d7
  [0x0, 0x1, 0x2] (.node (.node .leaf 0x30d9 [0x0, 0x1, 0x2] .leaf) 0x30da [0x0, 0x1, 0x2] (.node
  .leaf 0x30dc [0x0, 0x1, 0x2] .leaf))) 0x30dd [0x0, 0x1, 0x2] (.node (.node (.node .leaf 0x30f4
  [0x0, 0x1, 0x2] .leaf) 0x30f7 [0x0, 0x1, 0x2] (.node .leaf 0x30f8 [0x0, 0x1, 0x2] .leaf)) 0x30f9
  [0x0, 0x1, 0x2] (.node (.node .leaf 0x30fa [0x0, 0x1, 0x2] .leaf) 0x30fe [0x0, 0x1, 0x2] (.node
  .leaf 0x3304 [0x0, 0x1, 0x5] .leaf)))) 0x3307 [0x0, 0x1, 0x6] (.node (.node (.node (.node (.node
  .leaf 0x3310 [0x0, 0x1, 0x4] .leaf) 0x331e [0x0, 0x1, 0x4] .leaf) 0x3321 [0x0, 0x1, 0x5] (.node
  .leaf 0x3332 [0x0, 0x1, 0x6] .leaf)) 0x333b [0x0, 0x1, 0x5] (.node (.node .leaf 0x3340 [0x0,
  0x1, 0x5] .leaf) 0x334b [0x0, 0x1, 0x3] (.node .leaf 0x334e [0x0, 0x1, 0x4] .leaf))) 0xfb1d
  [0x0, 0x1, 0x2] (.node (.node (.node .leaf 0xfb1f [0x0, 0x1, 0x2] .leaf) 0xfb2a [0x0, 0x1, 0x2]
  (.node .leaf 0xfb2b [0x0, 0x1, 0x2] .leaf)) 0xfb2c [0x0, 0x2, 0x3] (.node (.node .leaf 0xfb2d
  [0x0, 0x2, 0x3] .leaf) 0xfb2e [0x0, 0x1, 0x2] (.node .leaf 0xfb2f [0x0, 0x1, 0x2] .leaf)))))
  0xfb30 [0x0, 0x1, 0x2] (.node (.node (.node (.node (.node (.node .leaf 0xfb31 [0x0, 0x1, 0x2]
  .leaf) 0xfb32 [0x0, 0x1, 0x2] .leaf) 0xfb33 [0x0, 0x1, 0x2] (.node .leaf 0xfb34 [0x0, 0x1, 0x2]
  .leaf)) 0xfb35 [0x0, 0x1, 0x2] (.node (.node .leaf 0xfb36 [0x0, 0x1, 0x2] .leaf) 0xfb38 [0x0,
  0x1, 0x2] (.node .leaf 0xfb39 [0x0, 0x1, 0x2] .leaf))) 0xfb3a [0x0, 0x1, 0x2] (.node (.node
  (.node .leaf 0xfb3b [0x0, 0x1, 0x2] .leaf) 0xfb3c [0x0, 0x1, 0x2] (.node .leaf 0xfb3e [0x0, 0x1,
  0x2] .leaf)) 0xfb40 [0x0, 0x1, 0x2] (.node (.node .leaf 0xfb41 [0x0, 0x1, 0x2] .leaf) 0xfb43
  [0x0, 0x1, 0x2] (.node .leaf 0xfb44 [0x0, 0x1, 0x2] .leaf)))) 0xfb46 [0x0, 0x1, 0x2] (.node
  (.node (.node (.node (.node .leaf 0xfb47 [0x0, 0x1, 0x2] .leaf) 0xfb48 [0x0, 0x1, 0x2] .leaf)
  0xfb49 [0x0, 0x1, 0x2] (.node .leaf 0xfb4a [0x0, 0x1, 0x2] .leaf)) 0xfb4b [0x0, 0x1, 0x2] (.node
  (.node .leaf 0xfb4c [0x0, 0x1, 0x2] .leaf) 0xfb4d [0x0, 0x1, 0x2] (.node .leaf 0xfb4e [0x0, 0x1,
  0x2] .leaf))) 0xfba4 [0x0, 0x1, 0x2] (.node (.node (.node .leaf 0xfba5 [0x0, 0x1, 0x2] .leaf)
  0xfbb0 [0x0, 0x1, 0x2] (.node .leaf 0xfbb1 [0x0, 0x1, 0x2] .leaf)) 0xfc5b [0x0, 0x1, 0x2] (.node
  (.node .leaf 0xfc5c [0x0, 0x1, 0x2] .leaf) 0xfc5d [0x0, 0x1, 0x2] (.node .leaf 0xfc5e [0x0, 0x2,
  0x3] .leaf))))))

def classTree_15 : Tree (List Nat) :=
  (.node (.node (.node (.node (.node (.node (.node .leaf 0xfc60 [0x0, 0x2, 0x3] .leaf) 0xfc61
  [0x0, 0x2, 0x3] .leaf) 0xfc62 [0x0, 0x2, 0x3] (.node .leaf 0xfc63 [0x0, 0x2, 0x3] .leaf)) 0xfc90
  [0x0, 0x1, 0x2] (.node (.node .leaf 0xfcd9 [0x0, 0x1, 0x2] .leaf) 0xfcf2 [0x0, 0x2, 0x3] (.node
  .leaf 0xfcf3 [0x0, 0x2, 0x3] .leaf))) 0xfcf4 [0x0, 0x2, 0x3] (.node (.node (.node .leaf 0xfd3c
  [0x0, 0x1, 0x2] .leaf) 0xfd3d [0x0, 0x1, 0x2] (.node .leaf 0xfe49 [0x0, 0x1, 0x2] .leaf)) 0xfe4a
  [0x0, 0x1, 0x2] (.node (.node .leaf 0xfe4b [0x0, 0x1, 0x2] .leaf) 0xfe4c [0x0, 0x1, 0x2] (.node
  .leaf 0xfe70 [0x0, 0x1, 0x2] .leaf)))) 0xfe71 [0x0, 0x1, 0x2] (.node (.node (.node (.node (.node
  .leaf 0xfe72 [0x0, 0x1, 0x2] .leaf) 0xfe74 [0x0, 0x1, 0x2] .leaf) 0xfe76 [0x0, 0x1, 0x2] (.node
  .leaf 0xfe77 [0x0, 0x1, 0x2] .leaf)) 0xfe78 [0x0, 0x1, 0x2] (.node (.node .leaf 0xfe79 [0x0,
  0x1, 0x2] .leaf) 0xfe7a [0x0, 0x1, 0x2] (.node .leaf 0xfe7b [0x0, 0x1, 0x2] .leaf))) 0xfe7c
  [0x0, 0x1, 0x2] (.node (.node (.node .leaf 0xfe7d [0x0, 0x1, 0x2] .leaf) 0xfe7e [0x0, 0x1, 0x2]
  (.node .leaf 0xfe7f [0x0, 0x1, 0x2] .leaf)) 0xfe81 [0x0, 0x1, 0x2] (.node (.node .leaf 0xfe82
  [0x0, 0x1, 0x2] .leaf) 0xfe83 [0x0, 0x1, 0x2] (.node .leaf 0xfe84 [0x0, 0x1, 0x2] .leaf)))))
  0xfe85 [0x0, 0x1, 0x2] (.node (.node (.node (.node (.node (.node .leaf 0xfe86 [0x0, 0x1, 0x2]
  .leaf) 0xfe87 [0x0, 0x1, 0x2] .leaf) 0xfe88 [0x0, 0x1, 0x2] (.node .leaf 0xfe89 [0x0, 0x1, 0x2]
  .leaf)) 0xfe8a [0x0, 0x1, 0x2] (.node (.node .leaf 0xfe8b [0x0, 0x1, 0x2] .leaf) 0xfe8c [0x0,
  0x1, 0x2] (.node .leaf 0xfef5 [0x0, 0x1, 0x3] .leaf))) 0xfef6 [0x0, 0x1, 0x3] (.node (.node
  (.node .leaf 0xfef7 [0x0, 0x1, 0x3] .leaf) 0xfef8 [0x0, 0x1, 0x3] (.node .leaf 0xfef9 [0x0, 0x1,
  0x3] .leaf)) 0xfefa [0x0, 0x1, 0x3] (.node (.node .leaf 0xff9e [0x1, 0x1, 0x1] .leaf) 0xff9f
  [0x1, 0x1, 0x1] (.node .leaf 0xffe3 [0x0, 0x1, 0x2] .leaf)))) 0x1109a [0x0, 0x1, 0x2] (.node
  (.node (.node (.node (.node .leaf 0x1109c [0x0, 0x1, 0x2] .leaf) 0x110ab [0x0, 0x1, 0x2] .leaf)
  0x1d15e [0x0, 0x1, 0x2] (.node .leaf 0x1d15f [0x0, 0x1, 0x2] .leaf)) 0x1d160 [0x0, 0x2, 0x3]
  (.node (.node .leaf 0x1d161 [0x0, 0x2, 0x3] .leaf) 0x1d162 [0x0, 0x2, 0x3] (.node .leaf 0x1d163
  [0x0, 0x2, 0x3] .leaf))) 0x1d164 [0x0, 0x2, 0x3] (.node (.node (.node .leaf 0x1d1bb [0x0, 0x1,
  0x2] .leaf) 0x1d1bc [0x0, 0x1, 0x2] (.node .leaf 0x1d1bd [0x0, 0x2, 0x3] .leaf)) 0x1d1be [0x0,
  0x2, 0x3] (.node (.node .leaf 0x1d1bf [0x0, 0x2, 0x3] .leaf) 0x1d1c0 [0x0, 0x2, 0x3] (.node
  .leaf 0x1f213 [0x0, 0x1, 0x2] .leaf))))))

/-- Leading nonstarters, trailing nonstarters and length of the compatibility decomposition, for the
scalars where the first two are not both zero and which are not plain nonstarters. -/
def classTree : Tree (List Nat) :=
  (.node (.node (.node (.node classTree_0 0x10a [0x0, 0x1, 0x2] classTree_1) 0x15f [0x0, 0x1, 0x2]
  (.node classTree_2 0x1ef [0x0, 0x1, 0x2] classTree_3)) 0x389 [0x0, 0x1, 0x2] (.node (.node
  classTree_4 0x4f4 [0x0, 0x1, 0x2] classTree_5) 0x1e18 [0x0, 0x1, 0x2] (.node classTree_6 0x1e5c
  [0x0, 0x2, 0x3] classTree_7))) 0x1ea5 [0x0, 0x2, 0x3] (.node (.node (.node classTree_8 0x1ee9
  [0x0, 0x2, 0x3] classTree_9) 0x1f37 [0x0, 0x2, 0x3] (.node classTree_10 0x1f85 [0x0, 0x3, 0x4]
  classTree_11)) 0x1fcc [0x0, 0x1, 0x2] (.node (.node classTree_12 0x2271 [0x0, 0x1, 0x2]
  classTree_13) 0x30d0 [0x0, 0x1, 0x2] (.node classTree_14 0xfc5f [0x0, 0x2, 0x3] classTree_15))))

def assignedTree_0 : RTree :=
  (.node (.node (.node (.node (.node (.node (.node .leaf 0x0 0x377 1 .leaf) 0x37a 0x37f 1 .leaf)
  0x384 0x38a 1 (.node (.node .leaf 0x38c 0x38c 1 .leaf) 0x38e 0x3a1 1 .leaf)) 0x3a3 0x52f 1
  (.node (.node (.node .leaf 0x531 0x556 1 .leaf) 0x559 0x58a 1 .leaf) 0x58d 0x58f 1 (.node (.node
  .leaf 0x591 0x5c7 1 .leaf) 0x5d0 0x5ea 1 .leaf))) 0x5ef 0x5f4 1 (.node (.node (.node (.node
  .leaf 0x600 0x70d 1 .leaf) 0x70f 0x74a 1 .leaf) 0x74d 0x7b1 1 (.node (.node .leaf 0x7c0 0x7fa 1
  .leaf) 0x7fd 0x82d 1 .leaf)) 0x830 0x83e 1 (.node (.node (.node .leaf 0x840 0x85b 1 .leaf) 0x85e
  0x85e 1 .leaf) 0x860 0x86a 1 (.node .leaf 0x870 0x88e 1 .leaf)))) 0x890 0x891 1 (.node (.node
  (.node (.node (.node .leaf 0x898 0x983 1 .leaf) 0x985 0x98c 1 .leaf) 0x98f 0x990 1 (.node (.node
  .leaf 0x993 0x9a8 1 .leaf) 0x9aa 0x9b0 1 .leaf)) 0x9b2 0x9b2 1 (.node (.node (.node .leaf 0x9b6
  0x9b9 1 .leaf) 0x9bc 0x9c4 1 .leaf) 0x9c7 0x9c8 1 (.node .leaf 0x9cb 0x9ce 1 .leaf))) 0x9d7
  0x9d7 1 (.node (.node (.node (.node .leaf 0x9dc 0x9dd 1 .leaf) 0x9df 0x9e3 1 .leaf) 0x9e6 0x9fe
  1 (.node (.node .leaf 0xa01 0xa03 1 .leaf) 0xa05 0xa0a 1 .leaf)) 0xa0f 0xa10 1 (.node (.node
  (.node .leaf 0xa13 0xa28 1 .leaf) 0xa2a 0xa30 1 .leaf) 0xa32 0xa33 1 (.node .leaf 0xa35 0xa36 1
  .leaf))))) 0xa38 0xa39 1 (.node (.node (.node (.node (.node (.node .leaf 0xa3c 0xa3c 1 .leaf)
  0xa3e 0xa42 1 .leaf) 0xa47 0xa48 1 (.node (.node .leaf 0xa4b 0xa4d 1 .leaf) 0xa51 0xa51 1
  .leaf)) 0xa59 0xa5c 1 (.node (.node (.node .leaf 0xa5e 0xa5e 1 .leaf) 0xa66 0xa76 1 .leaf) 0xa81
  0xa83 1 (.node .leaf 0xa85 0xa8d 1 .leaf))) 0xa8f 0xa91 1 (.node (.node (.node (.node .leaf
  0xa93 0xaa8 1 .leaf) 0xaaa 0xab0 1 .leaf) 0xab2 0xab3 1 (.node (.node .leaf 0xab5 0xab9 1 .leaf)
  0xabc 0xac5 1 .leaf)) 0xac7 0xac9 1 (.node (.node (.node .leaf 0xacb 0xacd 1 .leaf) 0xad0 0xad0
  1 .leaf) 0xae0 0xae3 1 (.node .leaf 0xae6 0xaf1 1 .leaf)))) 0xaf9 0xaff 1 (.node (.node (.node
  (.node (.node .leaf 0xb01 0xb03 1 .leaf) 0xb05 0xb0c 1 .leaf) 0xb0f 0xb10 1 (.node (.node .leaf
  0xb13 0xb28 1 .leaf) 0xb2a 0xb30 1 .leaf)) 0xb32 0xb33 1 (.node (.node (.node .leaf 0xb35 0xb39
  1 .leaf) 0xb3c 0xb44 1 .leaf) 0xb47 0xb48 1 (.node .leaf 0xb4b 0xb4d 1 .leaf))) 0xb55 0xb57 1
  (.node (.node (.node (.node .leaf 0xb5c 0xb5d 1 .leaf) 0xb5f 0xb63 1 .leaf) 0xb66 0xb77 1 (.node
  (.node .leaf 0xb82 0xb83 1 .leaf) 0xb85 0xb8a 1 .leaf)) 0xb8e 0xb90 1 (.node (.node (.node .leaf
  0xb92 0xb95 1 .leaf) 0xb99 0xb9a 1 .leaf) 0xb9c 0xb9c 1 (.node .leaf 0xb9e 0xb9f 1 .leaf))))))

def assignedTree_1 : RTree :=
  (.node (.node (.node (.node (.node (.node (.node .leaf 0xba8 0xbaa 1 .leaf) 0xbae 0xbb9 1 .leaf)
  0xbbe 0xbc2 1 (.node (.node .leaf 0xbc6 0xbc8 1 .leaf) 0xbca 0xbcd 1 .leaf)) 0xbd0 0xbd0 1
  (.node (.node (.node .leaf 0xbd7 0xbd7 1 .leaf) 0xbe6 0xbfa 1 .leaf) 0xc00 0xc0c 1 (.node .leaf
  0xc0e 0xc10 1 .leaf))) 0xc12 0xc28 1 (.node (.node (.node (.node .leaf 0xc2a 0xc39 1 .leaf)
  0xc3c 0xc44 1 .leaf) 0xc46 0xc48 1 (.node (.node .leaf 0xc4a 0xc4d 1 .leaf) 0xc55 0xc56 1
  .leaf)) 0xc58 0xc5a 1 (.node (.node (.node .leaf 0xc5d 0xc5d 1 .leaf) 0xc60 0xc63 1 .leaf) 0xc66
  0xc6f 1 (.node .leaf 0xc77 0xc8c 1 .leaf)))) 0xc8e 0xc90 1 (.node (.node (.node (.node (.node
  .leaf 0xc92 0xca8 1 .leaf) 0xcaa 0xcb3 1 .leaf) 0xcb5 0xcb9 1 (.node (.node .leaf 0xcbc 0xcc4 1
  .leaf) 0xcc6 0xcc8 1 .leaf)) 0xcca 0xccd 1 (.node (.node (.node .leaf 0xcd5 0xcd6 1 .leaf) 0xcdd
  0xcde 1 .leaf) 0xce0 0xce3 1 (.node .leaf 0xce6 0xcef 1 .leaf))) 0xcf1 0xcf3 1 (.node (.node
  (.node (.node .leaf 0xd00 0xd0c 1 .leaf) 0xd0e 0xd10 1 .leaf) 0xd12 0xd44 1 (.node (.node .leaf
  0xd46 0xd48 1 .leaf) 0xd4a 0xd4f 1 .leaf)) 0xd54 0xd63 1 (.node (.node (.node .leaf 0xd66 0xd7f
  1 .leaf) 0xd81 0xd83 1 .leaf) 0xd85 0xd96 1 (.node .leaf 0xd9a 0xdb1 1 .leaf))))) 0xdb3 0xdbb 1
  (.node (.node (.node (.node (.node (.node .leaf 0xdbd 0xdbd 1 .leaf) 0xdc0 0xdc6 1 .leaf) 0xdca
  0xdca 1 (.node (.node .leaf 0xdcf 0xdd4 1 .leaf) 0xdd6 0xdd6 1 .leaf)) 0xdd8 0xddf 1 (.node
  (.node (.node .leaf 0xde6 0xdef 1 .leaf) 0xdf2 0xdf4 1 .leaf) 0xe01 0xe3a 1 (.node .leaf 0xe3f
  0xe5b 1 .leaf))) 0xe81 0xe82 1 (.node (.node (.node (.node .leaf 0xe84 0xe84 1 .leaf) 0xe86
  0xe8a 1 .leaf) 0xe8c 0xea3 1 (.node (.node .leaf 0xea5 0xea5 1 .leaf) 0xea7 0xebd 1 .leaf))
  0xec0 0xec4 1 (.node (.node (.node .leaf 0xec6 0xec6 1 .leaf) 0xec8 0xece 1 .leaf) 0xed0 0xed9 1
  (.node .leaf 0xedc 0xedf 1 .leaf)))) 0xf00 0xf47 1 (.node (.node (.node (.node (.node .leaf
  0xf49 0xf6c 1 .leaf) 0xf71 0xf97 1 .leaf) 0xf99 0xfbc 1 (.node (.node .leaf 0xfbe 0xfcc 1 .leaf)
  0xfce 0xfda 1 .leaf)) 0x1000 0x10c5 1 (.node (.node (.node .leaf 0x10c7 0x10c7 1 .leaf) 0x10cd
  0x10cd 1 .leaf) 0x10d0 0x1248 1 (.node .leaf 0x124a 0x124d 1 .leaf))) 0x1250 0x1256 1 (.node
  (.node (.node (.node .leaf 0x1258 0x1258 1 .leaf) 0x125a 0x125d 1 .leaf) 0x1260 0x1288 1 (.node
  (.node .leaf 0x128a 0x128d 1 .leaf) 0x1290 0x12b0 1 .leaf)) 0x12b2 0x12b5 1 (.node (.node (.node
  .leaf 0x12b8 0x12be 1 .leaf) 0x12c0 0x12c0 1 .leaf) 0x12c2 0x12c5 1 (.node .leaf 0x12c8 0x12d6 1
  .leaf))))))

def assignedTree_2 : RTree :=
  (.node (.node (.node (.node (.node (.node (.node .leaf 0x1312 0x1315 1 .leaf) 0x1318 0x135a 1
  .leaf) 0x135d 0x137c 1 (.node (.node .leaf 0x1380 0x1399 1 .leaf) 0x13a0 0x13f5 1 .leaf)) 0x13f8
  0x13fd 1 (.node (.node (.node .leaf 0x1400 0x169c 1 .leaf) 0x16a0 0x16f8 1 .leaf) 0x1700 0x1715
  1 (.node .leaf 0x171f 0x1736 1 .leaf))) 0x1740 0x1753 1 (.node (.node (.node (.node .leaf 0x1760
  0x176c 1 .leaf) 0x176e 0x1770 1 .leaf) 0x1772 0x1773 1 (.node (.node .leaf 0x1780 0x17dd 1
  .leaf) 0x17e0 0x17e9 1 .leaf)) 0x17f0 0x17f9 1 (.node (.node (.node .leaf 0x1800 0x1819 1 .leaf)
  0x1820 0x1878 1 .leaf) 0x1880 0x18aa 1 (.node .leaf 0x18b0 0x18f5 1 .leaf)))) 0x1900 0x191e 1
  (.node (.node (.node (.node (.node .leaf 0x1920 0x192b 1 .leaf) 0x1930 0x193b 1 .leaf) 0x1940
  0x1940 1 (.node (.node .leaf 0x1944 0x196d 1 .leaf) 0x1970 0x1974 1 .leaf)) 0x1980 0x19ab 1
  (.node (.node (.node .leaf 0x19b0 0x19c9 1 .leaf) 0x19d0 0x19da 1 .leaf) 0x19de 0x1a1b 1 (.node
  .leaf 0x1a1e 0x1a5e 1 .leaf))) 0x1a60 0x1a7c 1 (.node (.node (.node (.node .leaf 0x1a7f 0x1a89 1
  .leaf) 0x1a90 0x1a99 1 .leaf) 0x1aa0 0x1aad 1 (.node (.node .leaf 0x1ab0 0x1ace 1 .leaf) 0x1b00
  0x1b4c 1 .leaf)) 0x1b50 0x1b7e 1 (.node (.node (.node .leaf 0x1b80 0x1bf3 1 .leaf) 0x1bfc 0x1c37
  1 .leaf) 0x1c3b 0x1c49 1 (.node .leaf 0x1c4d 0x1c88 1 .leaf))))) 0x1c90 0x1cba 1 (.node (.node
  (.node (.node (.node (.node .leaf 0x1cbd 0x1cc7 1 .leaf) 0x1cd0 0x1cfa 1 .leaf) 0x1d00 0x1f15 1
  (.node (.node .leaf 0x1f18 0x1f1d 1 .leaf) 0x1f20 0x1f45 1 .leaf)) 0x1f48 0x1f4d 1 (.node (.node
  (.node .leaf 0x1f50 0x1f57 1 .leaf) 0x1f59 0x1f59 1 .leaf) 0x1f5b 0x1f5b 1 (.node .leaf 0x1f5d
  0x1f5d 1 .leaf))) 0x1f5f 0x1f7d 1 (.node (.node (.node (.node .leaf 0x1f80 0x1fb4 1 .leaf)
  0x1fb6 0x1fc4 1 .leaf) 0x1fc6 0x1fd3 1 (.node (.node .leaf 0x1fd6 0x1fdb 1 .leaf) 0x1fdd 0x1fef
  1 .leaf)) 0x1ff2 0x1ff4 1 (.node (.node (.node .leaf 0x1ff6 0x1ffe 1 .leaf) 0x2000 0x2064 1
  .leaf) 0x2066 0x2071 1 (.node .leaf 0x2074 0x208e 1 .leaf)))) 0x2090 0x209c 1 (.node (.node
  (.node (.node (.node .leaf 0x20a0 0x20c0 1 .leaf) 0x20d0 0x20f0 1 .leaf) 0x2100 0x218b 1 (.node
  (.node .leaf 0x2190 0x2426 1 .leaf) 0x2440 0x244a 1 .leaf)) 0x2460 0x2b73 1 (.node (.node (.node
  .leaf 0x2b76 0x2b95 1 .leaf) 0x2b97 0x2cf3 1 .leaf) 0x2cf9 0x2d25 1 (.node .leaf 0x2d27 0x2d27 1
  .leaf))) 0x2d2d 0x2d2d 1 (.node (.node (.node (.node .leaf 0x2d30 0x2d67 1 .leaf) 0x2d6f 0x2d70
  1 .leaf) 0x2d7f 0x2d96 1 (.node (.node .leaf 0x2da0 0x2da6 1 .leaf) 0x2da8 0x2dae 1 .leaf))
  0x2db0 0x2db6 1 (.node (.node (.node .leaf 0x2db8 0x2dbe 1 .leaf) 0x2dc0 0x2dc6 1 .leaf) 0x2dc8
  0x2dce 1 (.node .leaf 0x2dd0 0x2dd6 1 .leaf))))))

def assignedTree_3 : RTree :=
  (.node (.node (.node (.node (.node (.node (.node .leaf 0x2de0 0x2e5d 1 .leaf) 0x2e80 0x2e99 1
  .leaf) 0x2e9b 0x2ef3 1 (.node (.node .leaf 0x2f00 0x2fd5 1 .leaf) 0x2ff0 0x303f 1 .leaf)) 0x3041
  0x3096 1 (.node (.node (.node .leaf 0x3099 0x30ff 1 .leaf) 0x3105 0x312f 1 .leaf) 0x3131 0x318e
  1 (.node .leaf 0x3190 0x31e3 1 .leaf))) 0x31ef 0x321e 1 (.node (.node (.node (.node .leaf 0x3220
  0xa48c 1 .leaf) 0xa490 0xa4c6 1 .leaf) 0xa4d0 0xa62b 1 (.node (.node .leaf 0xa640 0xa6f7 1
  .leaf) 0xa700 0xa7ca 1 .leaf)) 0xa7d0 0xa7d1 1 (.node (.node (.node .leaf 0xa7d3 0xa7d3 1 .leaf)
  0xa7d5 0xa7d9 1 .leaf) 0xa7f2 0xa82c 1 (.node .leaf 0xa830 0xa839 1 .leaf)))) 0xa840 0xa877 1
  (.node (.node (.node (.node (.node .leaf 0xa880 0xa8c5 1 .leaf) 0xa8ce 0xa8d9 1 .leaf) 0xa8e0
  0xa953 1 (.node (.node .leaf 0xa95f 0xa97c 1 .leaf) 0xa980 0xa9cd 1 .leaf)) 0xa9cf 0xa9d9 1
  (.node (.node (.node .leaf 0xa9de 0xa9fe 1 .leaf) 0xaa00 0xaa36 1 .leaf) 0xaa40 0xaa4d 1 (.node
  .leaf 0xaa50 0xaa59 1 .leaf))) 0xaa5c 0xaac2 1 (.node (.node (.node (.node .leaf 0xaadb 0xaaf6 1
  .leaf) 0xab01 0xab06 1 .leaf) 0xab09 0xab0e 1 (.node (.node .leaf 0xab11 0xab16 1 .leaf) 0xab20
  0xab26 1 .leaf)) 0xab28 0xab2e 1 (.node (.node (.node .leaf 0xab30 0xab6b 1 .leaf) 0xab70 0xabed
  1 .leaf) 0xabf0 0xabf9 1 (.node .leaf 0xac00 0xd7a3 1 .leaf))))) 0xd7b0 0xd7c6 1 (.node (.node
  (.node (.node (.node (.node .leaf 0xd7cb 0xd7fb 1 .leaf) 0xf900 0xfa6d 1 .leaf) 0xfa70 0xfad9 1
  (.node (.node .leaf 0xfb00 0xfb06 1 .leaf) 0xfb13 0xfb17 1 .leaf)) 0xfb1d 0xfb36 1 (.node (.node
  (.node .leaf 0xfb38 0xfb3c 1 .leaf) 0xfb3e 0xfb3e 1 .leaf) 0xfb40 0xfb41 1 (.node .leaf 0xfb43
  0xfb44 1 .leaf))) 0xfb46 0xfbc2 1 (.node (.node (.node (.node .leaf 0xfbd3 0xfd8f 1 .leaf)
  0xfd92 0xfdc7 1 .leaf) 0xfdcf 0xfdcf 1 (.node (.node .leaf 0xfdf0 0xfe19 1 .leaf) 0xfe20 0xfe52
  1 .leaf)) 0xfe54 0xfe66 1 (.node (.node (.node .leaf 0xfe68 0xfe6b 1 .leaf) 0xfe70 0xfe74 1
  .leaf) 0xfe76 0xfefc 1 (.node .leaf 0xfeff 0xfeff 1 .leaf)))) 0xff01 0xffbe 1 (.node (.node
  (.node (.node (.node .leaf 0xffc2 0xffc7 1 .leaf) 0xffca 0xffcf 1 .leaf) 0xffd2 0xffd7 1 (.node
  (.node .leaf 0xffda 0xffdc 1 .leaf) 0xffe0 0xffe6 1 .leaf)) 0xffe8 0xffee 1 (.node (.node (.node
  .leaf 0xfff9 0xfffd 1 .leaf) 0x10000 0x1000b 1 .leaf) 0x1000d 0x10026 1 (.node .leaf 0x10028
  0x1003a 1 .leaf))) 0x1003c 0x1003d 1 (.node (.node (.node (.node .leaf 0x1003f 0x1004d 1 .leaf)
  0x10050 0x1005d 1 .leaf) 0x10080 0x100fa 1 (.node (.node .leaf 0x10100 0x10102 1 .leaf) 0x10107
  0x10133 1 .leaf)) 0x10137 0x1018e 1 (.node (.node (.node .leaf 0x10190 0x1019c 1 .leaf) 0x101a0
  0x101a0 1 .leaf) 0x101d0 0x101fd 1 (.node .leaf 0x10280 0x1029c 1 .leaf))))))

def assignedTree_4 : RTree :=
  (.node (.node (.node (.node (.node (.node (.node .leaf 0x102e0 0x102fb 1 .leaf) 0x10300 0x10323
  1 .leaf) 0x1032d 0x1034a 1 (.node (.node .leaf 0x10350 0x1037a 1 .leaf) 0x10380 0x1039d 1
  .leaf)) 0x1039f 0x103c3 1 (.node (.node (.node .leaf 0x103c8 0x103d5 1 .leaf) 0x10400 0x1049d 1
  .leaf) 0x104a0 0x104a9 1 (.node (.node .leaf 0x104b0 0x104d3 1 .leaf) 0x104d8 0x104fb 1 .leaf)))
  0x10500 0x10527 1 (.node (.node (.node (.node .leaf 0x10530 0x10563 1 .leaf) 0x1056f 0x1057a 1
  .leaf) 0x1057c 0x1058a 1 (.node (.node .leaf 0x1058c 0x10592 1 .leaf) 0x10594 0x10595 1 .leaf))
  0x10597 0x105a1 1 (.node (.node (.node .leaf 0x105a3 0x105b1 1 .leaf) 0x105b3 0x105b9 1 .leaf)
  0x105bb 0x105bc 1 (.node .leaf 0x10600 0x10736 1 .leaf)))) 0x10740 0x10755 1 (.node (.node
  (.node (.node (.node .leaf 0x10760 0x10767 1 .leaf) 0x10780 0x10785 1 .leaf) 0x10787 0x107b0 1
  (.node (.node .leaf 0x107b2 0x107ba 1 .leaf) 0x10800 0x10805 1 .leaf)) 0x10808 0x10808 1 (.node
  (.node (.node .leaf 0x1080a 0x10835 1 .leaf) 0x10837 0x10838 1 .leaf) 0x1083c 0x1083c 1 (.node
  .leaf 0x1083f 0x10855 1 .leaf))) 0x10857 0x1089e 1 (.node (.node (.node (.node .leaf 0x108a7
  0x108af 1 .leaf) 0x108e0 0x108f2 1 .leaf) 0x108f4 0x108f5 1 (.node (.node .leaf 0x108fb 0x1091b
  1 .leaf) 0x1091f 0x10939 1 .leaf)) 0x1093f 0x1093f 1 (.node (.node (.node .leaf 0x10980 0x109b7
  1 .leaf) 0x109bc 0x109cf 1 .leaf) 0x109d2 0x10a03 1 (.node .leaf 0x10a05 0x10a06 1 .leaf)))))
  0x10a0c 0x10a13 1 (.node (.node (.node (.node (.node (.node .leaf 0x10a15 0x10a17 1 .leaf)
  0x10a19 0x10a35 1 .leaf) 0x10a38 0x10a3a 1 (.node (.node .leaf 0x10a3f 0x10a48 1 .leaf) 0x10a50
  0x10a58 1 .leaf)) 0x10a60 0x10a9f 1 (.node (.node (.node .leaf 0x10ac0 0x10ae6 1 .leaf) 0x10aeb
  0x10af6 1 .leaf) 0x10b00 0x10b35 1 (.node .leaf 0x10b39 0x10b55 1 .leaf))) 0x10b58 0x10b72 1
  (.node (.node (.node (.node .leaf 0x10b78 0x10b91 1 .leaf) 0x10b99 0x10b9c 1 .leaf) 0x10ba9
  0x10baf 1 (.node (.node .leaf 0x10c00 0x10c48 1 .leaf) 0x10c80 0x10cb2 1 .leaf)) 0x10cc0 0x10cf2
  1 (.node (.node (.node .leaf 0x10cfa 0x10d27 1 .leaf) 0x10d30 0x10d39 1 .leaf) 0x10e60 0x10e7e 1
  (.node .leaf 0x10e80 0x10ea9 1 .leaf)))) 0x10eab 0x10ead 1 (.node (.node (.node (.node (.node
  .leaf 0x10eb0 0x10eb1 1 .leaf) 0x10efd 0x10f27 1 .leaf) 0x10f30 0x10f59 1 (.node (.node .leaf
  0x10f70 0x10f89 1 .leaf) 0x10fb0 0x10fcb 1 .leaf)) 0x10fe0 0x10ff6 1 (.node (.node (.node .leaf
  0x11000 0x1104d 1 .leaf) 0x11052 0x11075 1 .leaf) 0x1107f 0x110c2 1 (.node .leaf 0x110cd 0x110cd
  1 .leaf))) 0x110d0 0x110e8 1 (.node (.node (.node (.node .leaf 0x110f0 0x110f9 1 .leaf) 0x11100
  0x11134 1 .leaf) 0x11136 0x11147 1 (.node (.node .leaf 0x11150 0x11176 1 .leaf) 0x11180 0x111df
  1 .leaf)) 0x111e1 0x111f4 1 (.node (.node (.node .leaf 0x11200 0x11211 1 .leaf) 0x11213 0x11241
  1 .leaf) 0x11280 0x11286 1 (.node .leaf 0x11288 0x11288 1 .leaf))))))

def assignedTree_5 : RTree :=
  (.node (.node (.node (.node (.node (.node (.node .leaf 0x1128f 0x1129d 1 .leaf) 0x1129f 0x112a9
  1 .leaf) 0x112b0 0x112ea 1 (.node (.node .leaf 0x112f0 0x112f9 1 .leaf) 0x11300 0x11303 1
  .leaf)) 0x11305 0x1130c 1 (.node (.node (.node .leaf 0x1130f 0x11310 1 .leaf) 0x11313 0x11328 1
  .leaf) 0x1132a 0x11330 1 (.node .leaf 0x11332 0x11333 1 .leaf))) 0x11335 0x11339 1 (.node (.node
  (.node (.node .leaf 0x1133b 0x11344 1 .leaf) 0x11347 0x11348 1 .leaf) 0x1134b 0x1134d 1 (.node
  (.node .leaf 0x11350 0x11350 1 .leaf) 0x11357 0x11357 1 .leaf)) 0x1135d 0x11363 1 (.node (.node
  (.node .leaf 0x11366 0x1136c 1 .leaf) 0x11370 0x11374 1 .leaf) 0x11400 0x1145b 1 (.node .leaf
  0x1145d 0x11461 1 .leaf)))) 0x11480 0x114c7 1 (.node (.node (.node (.node (.node .leaf 0x114d0
  0x114d9 1 .leaf) 0x11580 0x115b5 1 .leaf) 0x115b8 0x115dd 1 (.node (.node .leaf 0x11600 0x11644
  1 .leaf) 0x11650 0x11659 1 .leaf)) 0x11660 0x1166c 1 (.node (.node (.node .leaf 0x11680 0x116b9
  1 .leaf) 0x116c0 0x116c9 1 .leaf) 0x11700 0x1171a 1 (.node .leaf 0x1171d 0x1172b 1 .leaf)))
  0x11730 0x11746 1 (.node (.node (.node (.node .leaf 0x11800 0x1183b 1 .leaf) 0x118a0 0x118f2 1
  .leaf) 0x118ff 0x11906 1 (.node (.node .leaf 0x11909 0x11909 1 .leaf) 0x1190c 0x11913 1 .leaf))
  0x11915 0x11916 1 (.node (.node (.node .leaf 0x11918 0x11935 1 .leaf) 0x11937 0x11938 1 .leaf)
  0x1193b 0x11946 1 (.node .leaf 0x11950 0x11959 1 .leaf))))) 0x119a0 0x119a7 1 (.node (.node
  (.node (.node (.node (.node .leaf 0x119aa 0x119d7 1 .leaf) 0x119da 0x119e4 1 .leaf) 0x11a00
  0x11a47 1 (.node (.node .leaf 0x11a50 0x11aa2 1 .leaf) 0x11ab0 0x11af8 1 .leaf)) 0x11b00 0x11b09
  1 (.node (.node (.node .leaf 0x11c00 0x11c08 1 .leaf) 0x11c0a 0x11c36 1 .leaf) 0x11c38 0x11c45 1
  (.node .leaf 0x11c50 0x11c6c 1 .leaf))) 0x11c70 0x11c8f 1 (.node (.node (.node (.node .leaf
  0x11c92 0x11ca7 1 .leaf) 0x11ca9 0x11cb6 1 .leaf) 0x11d00 0x11d06 1 (.node (.node .leaf 0x11d08
  0x11d09 1 .leaf) 0x11d0b 0x11d36 1 .leaf)) 0x11d3a 0x11d3a 1 (.node (.node (.node .leaf 0x11d3c
  0x11d3d 1 .leaf) 0x11d3f 0x11d47 1 .leaf) 0x11d50 0x11d59 1 (.node .leaf 0x11d60 0x11d65 1
  .leaf)))) 0x11d67 0x11d68 1 (.node (.node (.node (.node (.node .leaf 0x11d6a 0x11d8e 1 .leaf)
  0x11d90 0x11d91 1 .leaf) 0x11d93 0x11d98 1 (.node (.node .leaf 0x11da0 0x11da9 1 .leaf) 0x11ee0
  0x11ef8 1 .leaf)) 0x11f00 0x11f10 1 (.node (.node (.node .leaf 0x11f12 0x11f3a 1 .leaf) 0x11f3e
  0x11f59 1 .leaf) 0x11fb0 0x11fb0 1 (.node .leaf 0x11fc0 0x11ff1 1 .leaf))) 0x11fff 0x12399 1
  (.node (.node (.node (.node .leaf 0x12400 0x1246e 1 .leaf) 0x12470 0x12474 1 .leaf) 0x12480
  0x12543 1 (.node (.node .leaf 0x12f90 0x12ff2 1 .leaf) 0x13000 0x13455 1 .leaf)) 0x14400 0x14646
  1 (.node (.node (.node .leaf 0x16800 0x16a38 1 .leaf) 0x16a40 0x16a5e 1 .leaf) 0x16a60 0x16a69 1
  (.node .leaf 0x16a6e 0x16abe 1 .leaf))))))

def assignedTree_6 : RTree :=
  (.node (.node (.node (.node (.node (.node (.node .leaf 0x16ad0 0x16aed 1 .leaf) 0x16af0 0x16af5
  1 .leaf) 0x16b00 0x16b45 1 (.node (.node .leaf 0x16b50 0x16b59 1 .leaf) 0x16b5b 0x16b61 1
  .leaf)) 0x16b63 0x16b77 1 (.node (.node (.node .leaf 0x16b7d 0x16b8f 1 .leaf) 0x16e40 0x16e9a 1
  .leaf) 0x16f00 0x16f4a 1 (.node .leaf 0x16f4f 0x16f87 1 .leaf))) 0x16f8f 0x16f9f 1 (.node (.node
  (.node (.node .leaf 0x16fe0 0x16fe4 1 .leaf) 0x16ff0 0x16ff1 1 .leaf) 0x17000 0x187f7 1 (.node
  (.node .leaf 0x18800 0x18cd5 1 .leaf) 0x18d00 0x18d08 1 .leaf)) 0x1aff0 0x1aff3 1 (.node (.node
  (.node .leaf 0x1aff5 0x1affb 1 .leaf) 0x1affd 0x1affe 1 .leaf) 0x1b000 0x1b122 1 (.node .leaf
  0x1b132 0x1b132 1 .leaf)))) 0x1b150 0x1b152 1 (.node (.node (.node (.node (.node .leaf 0x1b155
  0x1b155 1 .leaf) 0x1b164 0x1b167 1 .leaf) 0x1b170 0x1b2fb 1 (.node (.node .leaf 0x1bc00 0x1bc6a
  1 .leaf) 0x1bc70 0x1bc7c 1 .leaf)) 0x1bc80 0x1bc88 1 (.node (.node (.node .leaf 0x1bc90 0x1bc99
  1 .leaf) 0x1bc9c 0x1bca3 1 .leaf) 0x1cf00 0x1cf2d 1 (.node .leaf 0x1cf30 0x1cf46 1 .leaf)))
  0x1cf50 0x1cfc3 1 (.node (.node (.node (.node .leaf 0x1d000 0x1d0f5 1 .leaf) 0x1d100 0x1d126 1
  .leaf) 0x1d129 0x1d1ea 1 (.node (.node .leaf 0x1d200 0x1d245 1 .leaf) 0x1d2c0 0x1d2d3 1 .leaf))
  0x1d2e0 0x1d2f3 1 (.node (.node (.node .leaf 0x1d300 0x1d356 1 .leaf) 0x1d360 0x1d378 1 .leaf)
  0x1d400 0x1d454 1 (.node .leaf 0x1d456 0x1d49c 1 .leaf))))) 0x1d49e 0x1d49f 1 (.node (.node
  (.node (.node (.node (.node .leaf 0x1d4a2 0x1d4a2 1 .leaf) 0x1d4a5 0x1d4a6 1 .leaf) 0x1d4a9
  0x1d4ac 1 (.node (.node .leaf 0x1d4ae 0x1d4b9 1 .leaf) 0x1d4bb 0x1d4bb 1 .leaf)) 0x1d4bd 0x1d4c3
  1 (.node (.node (.node .leaf 0x1d4c5 0x1d505 1 .leaf) 0x1d507 0x1d50a 1 .leaf) 0x1d50d 0x1d514 1
  (.node .leaf 0x1d516 0x1d51c 1 .leaf))) 0x1d51e 0x1d539 1 (.node (.node (.node (.node .leaf
  0x1d53b 0x1d53e 1 .leaf) 0x1d540 0x1d544 1 .leaf) 0x1d546 0x1d546 1 (.node (.node .leaf 0x1d54a
  0x1d550 1 .leaf) 0x1d552 0x1d6a5 1 .leaf)) 0x1d6a8 0x1d7cb 1 (.node (.node (.node .leaf 0x1d7ce
  0x1da8b 1 .leaf) 0x1da9b 0x1da9f 1 .leaf) 0x1daa1 0x1daaf 1 (.node .leaf 0x1df00 0x1df1e 1
  .leaf)))) 0x1df25 0x1df2a 1 (.node (.node (.node (.node (.node .leaf 0x1e000 0x1e006 1 .leaf)
  0x1e008 0x1e018 1 .leaf) 0x1e01b 0x1e021 1 (.node (.node .leaf 0x1e023 0x1e024 1 .leaf) 0x1e026
  0x1e02a 1 .leaf)) 0x1e030 0x1e06d 1 (.node (.node (.node .leaf 0x1e08f 0x1e08f 1 .leaf) 0x1e100
  0x1e12c 1 .leaf) 0x1e130 0x1e13d 1 (.node .leaf 0x1e140 0x1e149 1 .leaf))) 0x1e14e 0x1e14f 1
  (.node (.node (.node (.node .leaf 0x1e290 0x1e2ae 1 .leaf) 0x1e2c0 0x1e2f9 1 .leaf) 0x1e2ff
  0x1e2ff 1 (.node (.node .leaf 0x1e4d0 0x1e4f9 1 .leaf) 0x1e7e0 0x1e7e6 1 .leaf)) 0x1e7e8 0x1e7eb
  1 (.node (.node (.node .leaf 0x1e7ed 0x1e7ee 1 .leaf) 0x1e7f0 0x1e7fe 1 .leaf) 0x1e800 0x1e8c4 1
  (.node .leaf 0x1e8c7 0x1e8d6 1 .leaf))))))

def assignedTree_7 : RTree :=
  (.node (.node (.node (.node (.node (.node (.node .leaf 0x1e950 0x1e959 1 .leaf) 0x1e95e 0x1e95f
  1 .leaf) 0x1ec71 0x1ecb4 1 (.node (.node .leaf 0x1ed01 0x1ed3d 1 .leaf) 0x1ee00 0x1ee03 1
  .leaf)) 0x1ee05 0x1ee1f 1 (.node (.node (.node .leaf 0x1ee21 0x1ee22 1 .leaf) 0x1ee24 0x1ee24 1
  .leaf) 0x1ee27 0x1ee27 1 (.node .leaf 0x1ee29 0x1ee32 1 .leaf))) 0x1ee34 0x1ee37 1 (.node (.node
  (.node (.node .leaf 0x1ee39 0x1ee39 1 .leaf) 0x1ee3b 0x1ee3b 1 .leaf) 0x1ee42 0x1ee42 1 (.node
  (.node .leaf 0x1ee47 0x1ee47 1 .leaf) 0x1ee49 0x1ee49 1 .leaf)) 0x1ee4b 0x1ee4b 1 (.node (.node
  (.node .leaf 0x1ee4d 0x1ee4f 1 .leaf) 0x1ee51 0x1ee52 1 .leaf) 0x1ee54 0x1ee54 1 (.node .leaf
  0x1ee57 0x1ee57 1 .leaf)))) 0x1ee59 0x1ee59 1 (.node (.node (.node (.node (.node .leaf 0x1ee5b
  0x1ee5b 1 .leaf) 0x1ee5d 0x1ee5d 1 .leaf) 0x1ee5f 0x1ee5f 1 (.node (.node .leaf 0x1ee61 0x1ee62
  1 .leaf) 0x1ee64 0x1ee64 1 .leaf)) 0x1ee67 0x1ee6a 1 (.node (.node (.node .leaf 0x1ee6c 0x1ee72
  1 .leaf) 0x1ee74 0x1ee77 1 .leaf) 0x1ee79 0x1ee7c 1 (.node .leaf 0x1ee7e 0x1ee7e 1 .leaf)))
  0x1ee80 0x1ee89 1 (.node (.node (.node (.node .leaf 0x1ee8b 0x1ee9b 1 .leaf) 0x1eea1 0x1eea3 1
  .leaf) 0x1eea5 0x1eea9 1 (.node (.node .leaf 0x1eeab 0x1eebb 1 .leaf) 0x1eef0 0x1eef1 1 .leaf))
  0x1f000 0x1f02b 1 (.node (.node (.node .leaf 0x1f030 0x1f093 1 .leaf) 0x1f0a0 0x1f0ae 1 .leaf)
  0x1f0b1 0x1f0bf 1 (.node .leaf 0x1f0c1 0x1f0cf 1 .leaf))))) 0x1f0d1 0x1f0f5 1 (.node (.node
  (.node (.node (.node (.node .leaf 0x1f100 0x1f1ad 1 .leaf) 0x1f1e6 0x1f202 1 .leaf) 0x1f210
  0x1f23b 1 (.node (.node .leaf 0x1f240 0x1f248 1 .leaf) 0x1f250 0x1f251 1 .leaf)) 0x1f260 0x1f265
  1 (.node (.node (.node .leaf 0x1f300 0x1f6d7 1 .leaf) 0x1f6dc 0x1f6ec 1 .leaf) 0x1f6f0 0x1f6fc 1
  (.node .leaf 0x1f700 0x1f776 1 .leaf))) 0x1f77b 0x1f7d9 1 (.node (.node (.node (.node .leaf
  0x1f7e0 0x1f7eb 1 .leaf) 0x1f7f0 0x1f7f0 1 .leaf) 0x1f800 0x1f80b 1 (.node (.node .leaf 0x1f810
  0x1f847 1 .leaf) 0x1f850 0x1f859 1 .leaf)) 0x1f860 0x1f887 1 (.node (.node (.node .leaf 0x1f890
  0x1f8ad 1 .leaf) 0x1f8b0 0x1f8b1 1 .leaf) 0x1f900 0x1fa53 1 (.node .leaf 0x1fa60 0x1fa6d 1
  .leaf)))) 0x1fa70 0x1fa7c 1 (.node (.node (.node (.node (.node .leaf 0x1fa80 0x1fa88 1 .leaf)
  0x1fa90 0x1fabd 1 .leaf) 0x1fabf 0x1fac5 1 (.node (.node .leaf 0x1face 0x1fadb 1 .leaf) 0x1fae0
  0x1fae8 1 .leaf)) 0x1faf0 0x1faf8 1 (.node (.node (.node .leaf 0x1fb00 0x1fb92 1 .leaf) 0x1fb94
  0x1fbca 1 .leaf) 0x1fbf0 0x1fbf9 1 (.node .leaf 0x20000 0x2a6df 1 .leaf))) 0x2a700 0x2b739 1
  (.node (.node (.node (.node .leaf 0x2b740 0x2b81d 1 .leaf) 0x2b820 0x2cea1 1 .leaf) 0x2ceb0
  0x2ebe0 1 (.node (.node .leaf 0x2ebf0 0x2ee5d 1 .leaf) 0x2f800 0x2fa1d 1 .leaf)) 0x30000 0x3134a
  1 (.node (.node (.node .leaf 0x31350 0x323af 1 .leaf) 0xe0001 0xe0001 1 .leaf) 0xe0020 0xe007f 1
  (.node .leaf 0xe0100 0xe01ef 1 .leaf))))))

/-- General_Category neither Cn nor Co. -/
def assignedTree : RTree :=
  (.node (.node (.node assignedTree_0 0xba3 0xba4 1 assignedTree_1) 0x12d8 0x1310 1 (.node
  assignedTree_2 0x2dd8 0x2dde 1 assignedTree_3)) 0x102a0 0x102d0 1 (.node (.node assignedTree_4
  0x1128a 0x1128d 1 assignedTree_5) 0x16ac0 0x16ac9 1 (.node assignedTree_6 0x1e900 0x1e94b 1
  assignedTree_7)))

def cjkTree_0 : Tree (List Nat) :=
  (.node (.node (.node (.node (.node (.node (.node .leaf 0xf900 [0x8c48, 0xfe00] .leaf) 0xf901
  [0x66f4, 0xfe00] (.node .leaf 0xf902 [0x8eca, 0xfe00] .leaf)) 0xf903 [0x8cc8, 0xfe00] (.node
  (.node .leaf 0xf904 [0x6ed1, 0xfe00] .leaf) 0xf905 [0x4e32, 0xfe00] (.node .leaf 0xf906 [0x53e5,
  0xfe00] .leaf))) 0xf907 [0x9f9c, 0xfe00] (.node (.node (.node .leaf 0xf908 [0x9f9c, 0xfe01]
  .leaf) 0xf909 [0x5951, 0xfe00] (.node .leaf 0xf90a [0x91d1, 0xfe00] .leaf)) 0xf90b [0x5587,
  0xfe00] (.node (.node .leaf 0xf90c [0x5948, 0xfe00] .leaf) 0xf90d [0x61f6, 0xfe00] (.node .leaf
  0xf90e [0x7669, 0xfe00] .leaf)))) 0xf90f [0x7f85, 0xfe00] (.node (.node (.node (.node .leaf
  0xf910 [0x863f, 0xfe00] .leaf) 0xf911 [0x87ba, 0xfe00] (.node .leaf 0xf912 [0x88f8, 0xfe00]
  .leaf)) 0xf913 [0x908f, 0xfe00] (.node (.node .leaf 0xf914 [0x6a02, 0xfe00] .leaf) 0xf915
  [0x6d1b, 0xfe00] (.node .leaf 0xf916 [0x70d9, 0xfe00] .leaf))) 0xf917 [0x73de, 0xfe00] (.node
  (.node (.node .leaf 0xf918 [0x843d, 0xfe00] .leaf) 0xf919 [0x916a, 0xfe00] (.node .leaf 0xf91a
  [0x99f1, 0xfe00] .leaf)) 0xf91b [0x4e82, 0xfe00] (.node (.node .leaf 0xf91c [0x5375, 0xfe00]
  .leaf) 0xf91d [0x6b04, 0xfe00] (.node .leaf 0xf91e [0x721b, 0xfe00] .leaf))))) 0xf91f [0x862d,
  0xfe00] (.node (.node (.node (.node (.node .leaf 0xf920 [0x9e1e, 0xfe00] .leaf) 0xf921 [0x5d50,
  0xfe00] (.node .leaf 0xf922 [0x6feb, 0xfe00] .leaf)) 0xf923 [0x85cd, 0xfe00] (.node (.node .leaf
  0xf924 [0x8964, 0xfe00] .leaf) 0xf925 [0x62c9, 0xfe00] (.node .leaf 0xf926 [0x81d8, 0xfe00]
  .leaf))) 0xf927 [0x881f, 0xfe00] (.node (.node (.node .leaf 0xf928 [0x5eca, 0xfe00] .leaf)
  0xf929 [0x6717, 0xfe00] (.node .leaf 0xf92a [0x6d6a, 0xfe00] .leaf)) 0xf92b [0x72fc, 0xfe00]
  (.node (.node .leaf 0xf92c [0x90ce, 0xfe00] .leaf) 0xf92d [0x4f86, 0xfe00] (.node .leaf 0xf92e
  [0x51b7, 0xfe00] .leaf)))) 0xf92f [0x52de, 0xfe00] (.node (.node (.node (.node .leaf 0xf930
  [0x64c4, 0xfe00] .leaf) 0xf931 [0x6ad3, 0xfe00] (.node .leaf 0xf932 [0x7210, 0xfe00] .leaf))
  0xf933 [0x76e7, 0xfe00] (.node (.node .leaf 0xf934 [0x8001, 0xfe00] .leaf) 0xf935 [0x8606,
  0xfe00] (.node .leaf 0xf936 [0x865c, 0xfe00] .leaf))) 0xf937 [0x8def, 0xfe00] (.node (.node
  (.node .leaf 0xf938 [0x9732, 0xfe00] .leaf) 0xf939 [0x9b6f, 0xfe00] (.node .leaf 0xf93a [0x9dfa,
  0xfe00] .leaf)) 0xf93b [0x788c, 0xfe00] (.node (.node .leaf 0xf93c [0x797f, 0xfe00] .leaf)
  0xf93d [0x7da0, 0xfe00] .leaf))))) 0xf93e [0x83c9, 0xfe00] (.node (.node (.node (.node (.node
  (.node .leaf 0xf93f [0x9304, 0xfe00] .leaf) 0xf940 [0x9e7f, 0xfe00] (.node .leaf 0xf941 [0x8ad6,
  0xfe00] .leaf)) 0xf942 [0x58df, 0xfe00] (.node (.node .leaf 0xf943 [0x5f04, 0xfe00] .leaf)
  0xf944 [0x7c60, 0xfe00] (.node .leaf 0xf945 [0x807e, 0xfe00] .leaf))) 0xf946 [0x7262, 0xfe00]
  (.node (.node (.node .leaf 0xf947 [0x78ca, 0xfe00] .leaf) 0xf948 [0x8cc2, 0xfe00] (.node .leaf
  0xf949 [0x96f7, 0xfe00] .leaf)) 0xf94a [0x58d8, 0xfe00] (.node (.node .leaf 0xf94b [0x5c62,
  0xfe00] .leaf) 0xf94c [0x6a13, 0xfe00] (.node .leaf 0xf94d [0x6dda, 0xfe00] .leaf)))) 0xf94e
  [0x6f0f, 0xfe00] (.node (.node (.node (.node .leaf 0xf94f [0x7d2f, 0xfe00] .leaf) 0xf950
  [0x7e37, 0xfe00] (.node .leaf 0xf951 [0x964b, 0xfe00] .leaf)) 0xf952 [0x52d2, 0xfe00] (.node
  (.node .leaf 0xf953 [0x808b, 0xfe00] .leaf) 0xf954 [0x51dc, 0xfe00] (.node .leaf 0xf955 [0x51cc,
  0xfe00] .leaf))) 0xf956 [0x7a1c, 0xfe00] (.node (.node (.node .leaf 0xf957 [0x7dbe, 0xfe00]
  .leaf) 0xf958 [0x83f1, 0xfe00] (.node .leaf 0xf959 [0x9675, 0xfe00] .leaf)) 0xf95a [0x8b80,
  0xfe00] (.node (.node .leaf 0xf95b [0x62cf, 0xfe00] .leaf) 0xf95c [0x6a02, 0xfe01] (.node .leaf
  0xf95d [0x8afe, 0xfe00] .leaf))))) 0xf95e [0x4e39, 0xfe00] (.node (.node (.node (.node (.node
  .leaf 0xf95f [0x5be7, 0xfe00] .leaf) 0xf960 [0x6012, 0xfe00] (.node .leaf 0xf961 [0x7387,
  0xfe00] .leaf)) 0xf962 [0x7570, 0xfe00] (.node (.node .leaf 0xf963 [0x5317, 0xfe00] .leaf)
  0xf964 [0x78fb, 0xfe00] (.node .leaf 0xf965 [0x4fbf, 0xfe00] .leaf))) 0xf966 [0x5fa9, 0xfe00]
  (.node (.node (.node .leaf 0xf967 [0x4e0d, 0xfe00] .leaf) 0xf968 [0x6ccc, 0xfe00] (.node .leaf
  0xf969 [0x6578, 0xfe00] .leaf)) 0xf96a [0x7d22, 0xfe00] (.node (.node .leaf 0xf96b [0x53c3,
  0xfe00] .leaf) 0xf96c [0x585e, 0xfe00] (.node .leaf 0xf96d [0x7701, 0xfe00] .leaf)))) 0xf96e
  [0x8449, 0xfe00] (.node (.node (.node (.node .leaf 0xf96f [0x8aaa, 0xfe00] .leaf) 0xf970
  [0x6bba, 0xfe00] (.node .leaf 0xf971 [0x8fb0, 0xfe00] .leaf)) 0xf972 [0x6c88, 0xfe00] (.node
  (.node .leaf 0xf973 [0x62fe, 0xfe00] .leaf) 0xf974 [0x82e5, 0xfe00] (.node .leaf 0xf975 [0x63a0,
  0xfe00] .leaf))) 0xf976 [0x7565, 0xfe00] (.node (.node (.node .leaf 0xf977 [0x4eae, 0xfe00]
  .leaf) 0xf978 [0x5169, 0xfe00] (.node .leaf 0xf979 [0x51c9, 0xfe00] .leaf)) 0xf97a [0x6881,
  0xfe00] (.node (.node .leaf 0xf97b [0x7ce7, 0xfe00] .leaf) 0xf97c [0x826f, 0xfe00] .leaf))))))

def cjkTree_1 : Tree (List Nat) :=
  (.node (.node (.node (.node (.node (.node (.node .leaf 0xf97e [0x91cf, 0xfe00] .leaf) 0xf97f
  [0x52f5, 0xfe00] (.node .leaf 0xf980 [0x5442, 0xfe00] .leaf)) 0xf981 [0x5973, 0xfe00] (.node
  (.node .leaf 0xf982 [0x5eec, 0xfe00] .leaf) 0xf983 [0x65c5, 0xfe00] (.node .leaf 0xf984 [0x6ffe,
  0xfe00] .leaf))) 0xf985 [0x792a, 0xfe00] (.node (.node (.node .leaf 0xf986 [0x95ad, 0xfe00]
  .leaf) 0xf987 [0x9a6a, 0xfe00] (.node .leaf 0xf988 [0x9e97, 0xfe00] .leaf)) 0xf989 [0x9ece,
  0xfe00] (.node (.node .leaf 0xf98a [0x529b, 0xfe00] .leaf) 0xf98b [0x66c6, 0xfe00] (.node .leaf
  0xf98c [0x6b77, 0xfe00] .leaf)))) 0xf98d [0x8f62, 0xfe00] (.node (.node (.node (.node .leaf
  0xf98e [0x5e74, 0xfe00] .leaf) 0xf98f [0x6190, 0xfe00] (.node .leaf 0xf990 [0x6200, 0xfe00]
  .leaf)) 0xf991 [0x649a, 0xfe00] (.node (.node .leaf 0xf992 [0x6f23, 0xfe00] .leaf) 0xf993
  [0x7149, 0xfe00] (.node .leaf 0xf994 [0x7489, 0xfe00] .leaf))) 0xf995 [0x79ca, 0xfe00] (.node
  (.node (.node .leaf 0xf996 [0x7df4, 0xfe00] .leaf) 0xf997 [0x806f, 0xfe00] (.node .leaf 0xf998
  [0x8f26, 0xfe00] .leaf)) 0xf999 [0x84ee, 0xfe00] (.node (.node .leaf 0xf99a [0x9023, 0xfe00]
  .leaf) 0xf99b [0x934a, 0xfe00] (.node .leaf 0xf99c [0x5217, 0xfe00] .leaf))))) 0xf99d [0x52a3,
  0xfe00] (.node (.node (.node (.node (.node .leaf 0xf99e [0x54bd, 0xfe00] .leaf) 0xf99f [0x70c8,
  0xfe00] (.node .leaf 0xf9a0 [0x88c2, 0xfe00] .leaf)) 0xf9a1 [0x8aaa, 0xfe01] (.node (.node .leaf
  0xf9a2 [0x5ec9, 0xfe00] .leaf) 0xf9a3 [0x5ff5, 0xfe00] (.node .leaf 0xf9a4 [0x637b, 0xfe00]
  .leaf))) 0xf9a5 [0x6bae, 0xfe00] (.node (.node (.node .leaf 0xf9a6 [0x7c3e, 0xfe00] .leaf)
  0xf9a7 [0x7375, 0xfe00] (.node .leaf 0xf9a8 [0x4ee4, 0xfe00] .leaf)) 0xf9a9 [0x56f9, 0xfe00]
  (.node (.node .leaf 0xf9aa [0x5be7, 0xfe01] .leaf) 0xf9ab [0x5dba, 0xfe00] (.node .leaf 0xf9ac
  [0x601c, 0xfe00] .leaf)))) 0xf9ad [0x73b2, 0xfe00] (.node (.node (.node (.node .leaf 0xf9ae
  [0x7469, 0xfe00] .leaf) 0xf9af [0x7f9a, 0xfe00] (.node .leaf 0xf9b0 [0x8046, 0xfe00] .leaf))
  0xf9b1 [0x9234, 0xfe00] (.node (.node .leaf 0xf9b2 [0x96f6, 0xfe00] .leaf) 0xf9b3 [0x9748,
  0xfe00] (.node .leaf 0xf9b4 [0x9818, 0xfe00] .leaf))) 0xf9b5 [0x4f8b, 0xfe00] (.node (.node
  (.node .leaf 0xf9b6 [0x79ae, 0xfe00] .leaf) 0xf9b7 [0x91b4, 0xfe00] (.node .leaf 0xf9b8 [0x96b8,
  0xfe00] .leaf)) 0xf9b9 [0x60e1, 0xfe00] (.node (.node .leaf 0xf9ba [0x4e86, 0xfe00] .leaf)
  0xf9bb [0x50da, 0xfe00] .leaf))))) 0xf9bc [0x5bee, 0xfe00] (.node (.node (.node (.node (.node
  (.node .leaf 0xf9bd [0x5c3f, 0xfe00] .leaf) 0xf9be [0x6599, 0xfe00] (.node .leaf 0xf9bf [0x6a02,
  0xfe02] .leaf)) 0xf9c0 [0x71ce, 0xfe00] (.node (.node .leaf 0xf9c1 [0x7642, 0xfe00] .leaf)
  0xf9c2 [0x84fc, 0xfe00] (.node .leaf 0xf9c3 [0x907c, 0xfe00] .leaf))) 0xf9c4 [0x9f8d, 0xfe00]
  (.node (.node (.node .leaf 0xf9c5 [0x6688, 0xfe00] .leaf) 0xf9c6 [0x962e, 0xfe00] (.node .leaf
  0xf9c7 [0x5289, 0xfe00] .leaf)) 0xf9c8 [0x677b, 0xfe00] (.node (.node .leaf 0xf9c9 [0x67f3,
  0xfe00] .leaf) 0xf9ca [0x6d41, 0xfe00] (.node .leaf 0xf9cb [0x6e9c, 0xfe00] .leaf)))) 0xf9cc
  [0x7409, 0xfe00] (.node (.node (.node (.node .leaf 0xf9cd [0x7559, 0xfe00] .leaf) 0xf9ce
  [0x786b, 0xfe00] (.node .leaf 0xf9cf [0x7d10, 0xfe00] .leaf)) 0xf9d0 [0x985e, 0xfe00] (.node
  (.node .leaf 0xf9d1 [0x516d, 0xfe00] .leaf) 0xf9d2 [0x622e, 0xfe00] (.node .leaf 0xf9d3 [0x9678,
  0xfe00] .leaf))) 0xf9d4 [0x502b, 0xfe00] (.node (.node (.node .leaf 0xf9d5 [0x5d19, 0xfe00]
  .leaf) 0xf9d6 [0x6dea, 0xfe00] (.node .leaf 0xf9d7 [0x8f2a, 0xfe00] .leaf)) 0xf9d8 [0x5f8b,
  0xfe00] (.node (.node .leaf 0xf9d9 [0x6144, 0xfe00] .leaf) 0xf9da [0x6817, 0xfe00] .leaf))))
  0xf9db [0x7387, 0xfe01] (.node (.node (.node (.node (.node .leaf 0xf9dc [0x9686, 0xfe00] .leaf)
  0xf9dd [0x5229, 0xfe00] (.node .leaf 0xf9de [0x540f, 0xfe00] .leaf)) 0xf9df [0x5c65, 0xfe00]
  (.node (.node .leaf 0xf9e0 [0x6613, 0xfe00] .leaf) 0xf9e1 [0x674e, 0xfe00] (.node .leaf 0xf9e2
  [0x68a8, 0xfe00] .leaf))) 0xf9e3 [0x6ce5, 0xfe00] (.node (.node (.node .leaf 0xf9e4 [0x7406,
  0xfe00] .leaf) 0xf9e5 [0x75e2, 0xfe00] (.node .leaf 0xf9e6 [0x7f79, 0xfe00] .leaf)) 0xf9e7
  [0x88cf, 0xfe00] (.node (.node .leaf 0xf9e8 [0x88e1, 0xfe00] .leaf) 0xf9e9 [0x91cc, 0xfe00]
  (.node .leaf 0xf9ea [0x96e2, 0xfe00] .leaf)))) 0xf9eb [0x533f, 0xfe00] (.node (.node (.node
  (.node .leaf 0xf9ec [0x6eba, 0xfe00] .leaf) 0xf9ed [0x541d, 0xfe00] (.node .leaf 0xf9ee [0x71d0,
  0xfe00] .leaf)) 0xf9ef [0x7498, 0xfe00] (.node (.node .leaf 0xf9f0 [0x85fa, 0xfe00] .leaf)
  0xf9f1 [0x96a3, 0xfe00] (.node .leaf 0xf9f2 [0x9c57, 0xfe00] .leaf))) 0xf9f3 [0x9e9f, 0xfe00]
  (.node (.node (.node .leaf 0xf9f4 [0x6797, 0xfe00] .leaf) 0xf9f5 [0x6dcb, 0xfe00] (.node .leaf
  0xf9f6 [0x81e8, 0xfe00] .leaf)) 0xf9f7 [0x7acb, 0xfe00] (.node (.node .leaf 0xf9f8 [0x7b20,
  0xfe00] .leaf) 0xf9f9 [0x7c92, 0xfe00] .leaf))))))

def cjkTree_2 : Tree (List Nat) :=
  (.node (.node (.node (.node (.node (.node (.node .leaf 0xf9fb [0x7099, 0xfe00] .leaf) 0xf9fc
  [0x8b58, 0xfe00] (.node .leaf 0xf9fd [0x4ec0, 0xfe00] .leaf)) 0xf9fe [0x8336, 0xfe00] (.node
  (.node .leaf 0xf9ff [0x523a, 0xfe00] .leaf) 0xfa00 [0x5207, 0xfe00] (.node .leaf 0xfa01 [0x5ea6,
  0xfe00] .leaf))) 0xfa02 [0x62d3, 0xfe00] (.node (.node (.node .leaf 0xfa03 [0x7cd6, 0xfe00]
  .leaf) 0xfa04 [0x5b85, 0xfe00] (.node .leaf 0xfa05 [0x6d1e, 0xfe00] .leaf)) 0xfa06 [0x66b4,
  0xfe00] (.node (.node .leaf 0xfa07 [0x8f3b, 0xfe00] .leaf) 0xfa08 [0x884c, 0xfe00] (.node .leaf
  0xfa09 [0x964d, 0xfe00] .leaf)))) 0xfa0a [0x898b, 0xfe00] (.node (.node (.node (.node .leaf
  0xfa0b [0x5ed3, 0xfe00] .leaf) 0xfa0c [0x5140, 0xfe00] (.node .leaf 0xfa0d [0x55c0, 0xfe00]
  .leaf)) 0xfa10 [0x585a, 0xfe00] (.node (.node .leaf 0xfa12 [0x6674, 0xfe00] .leaf) 0xfa15
  [0x51de, 0xfe00] (.node .leaf 0xfa16 [0x732a, 0xfe00] .leaf))) 0xfa17 [0x76ca, 0xfe00] (.node
  (.node (.node .leaf 0xfa18 [0x793c, 0xfe00] .leaf) 0xfa19 [0x795e, 0xfe00] (.node .leaf 0xfa1a
  [0x7965, 0xfe00] .leaf)) 0xfa1b [0x798f, 0xfe00] (.node (.node .leaf 0xfa1c [0x9756, 0xfe00]
  .leaf) 0xfa1d [0x7cbe, 0xfe00] (.node .leaf 0xfa1e [0x7fbd, 0xfe00] .leaf))))) 0xfa20 [0x8612,
  0xfe00] (.node (.node (.node (.node (.node .leaf 0xfa22 [0x8af8, 0xfe00] .leaf) 0xfa25 [0x9038,
  0xfe00] (.node .leaf 0xfa26 [0x90fd, 0xfe00] .leaf)) 0xfa2a [0x98ef, 0xfe00] (.node (.node .leaf
  0xfa2b [0x98fc, 0xfe00] .leaf) 0xfa2c [0x9928, 0xfe00] (.node .leaf 0xfa2d [0x9db4, 0xfe00]
  .leaf))) 0xfa2e [0x90de, 0xfe00] (.node (.node (.node .leaf 0xfa2f [0x96b7, 0xfe00] .leaf)
  0xfa30 [0x4fae, 0xfe00] (.node .leaf 0xfa31 [0x50e7, 0xfe00] .leaf)) 0xfa32 [0x514d, 0xfe00]
  (.node (.node .leaf 0xfa33 [0x52c9, 0xfe00] .leaf) 0xfa34 [0x52e4, 0xfe00] (.node .leaf 0xfa35
  [0x5351, 0xfe00] .leaf)))) 0xfa36 [0x559d, 0xfe00] (.node (.node (.node (.node .leaf 0xfa37
  [0x5606, 0xfe00] .leaf) 0xfa38 [0x5668, 0xfe00] (.node .leaf 0xfa39 [0x5840, 0xfe00] .leaf))
  0xfa3a [0x58a8, 0xfe00] (.node (.node .leaf 0xfa3b [0x5c64, 0xfe00] .leaf) 0xfa3c [0x5c6e,
  0xfe00] (.node .leaf 0xfa3d [0x6094, 0xfe00] .leaf))) 0xfa3e [0x6168, 0xfe00] (.node (.node
  (.node .leaf 0xfa3f [0x618e, 0xfe00] .leaf) 0xfa40 [0x61f2, 0xfe00] (.node .leaf 0xfa41 [0x654f,
  0xfe00] .leaf)) 0xfa42 [0x65e2, 0xfe00] (.node (.node .leaf 0xfa43 [0x6691, 0xfe00] .leaf)
  0xfa44 [0x6885, 0xfe00] .leaf))))) 0xfa45 [0x6d77, 0xfe00] (.node (.node (.node (.node (.node
  (.node .leaf 0xfa46 [0x6e1a, 0xfe00] .leaf) 0xfa47 [0x6f22, 0xfe00] (.node .leaf 0xfa48 [0x716e,
  0xfe00] .leaf)) 0xfa49 [0x722b, 0xfe00] (.node (.node .leaf 0xfa4a [0x7422, 0xfe00] .leaf)
  0xfa4b [0x7891, 0xfe00] (.node .leaf 0xfa4c [0x793e, 0xfe00] .leaf))) 0xfa4d [0x7949, 0xfe00]
  (.node (.node (.node .leaf 0xfa4e [0x7948, 0xfe00] .leaf) 0xfa4f [0x7950, 0xfe00] (.node .leaf
  0xfa50 [0x7956, 0xfe00] .leaf)) 0xfa51 [0x795d, 0xfe00] (.node (.node .leaf 0xfa52 [0x798d,
  0xfe00] .leaf) 0xfa53 [0x798e, 0xfe00] (.node .leaf 0xfa54 [0x7a40, 0xfe00] .leaf)))) 0xfa55
  [0x7a81, 0xfe00] (.node (.node (.node (.node .leaf 0xfa56 [0x7bc0, 0xfe00] .leaf) 0xfa57
  [0x7df4, 0xfe01] (.node .leaf 0xfa58 [0x7e09, 0xfe00] .leaf)) 0xfa59 [0x7e41, 0xfe00] (.node
  (.node .leaf 0xfa5a [0x7f72, 0xfe00] .leaf) 0xfa5b [0x8005, 0xfe00] (.node .leaf 0xfa5c [0x81ed,
  0xfe00] .leaf))) 0xfa5d [0x8279, 0xfe00] (.node (.node (.node .leaf 0xfa5e [0x8279, 0xfe01]
  .leaf) 0xfa5f [0x8457, 0xfe00] (.node .leaf 0xfa60 [0x8910, 0xfe00] .leaf)) 0xfa61 [0x8996,
  0xfe00] (.node (.node .leaf 0xfa62 [0x8b01, 0xfe00] .leaf) 0xfa63 [0x8b39, 0xfe00] (.node .leaf
  0xfa64 [0x8cd3, 0xfe00] .leaf))))) 0xfa65 [0x8d08, 0xfe00] (.node (.node (.node (.node (.node
  .leaf 0xfa66 [0x8fb6, 0xfe00] .leaf) 0xfa67 [0x9038, 0xfe01] (.node .leaf 0xfa68 [0x96e3,
  0xfe00] .leaf)) 0xfa69 [0x97ff, 0xfe00] (.node (.node .leaf 0xfa6a [0x983b, 0xfe00] .leaf)
  0xfa6b [0x6075, 0xfe00] (.node .leaf 0xfa6c [0x242ee, 0xfe00] .leaf))) 0xfa6d [0x8218, 0xfe00]
  (.node (.node (.node .leaf 0xfa70 [0x4e26, 0xfe00] .leaf) 0xfa71 [0x51b5, 0xfe00] (.node .leaf
  0xfa72 [0x5168, 0xfe00] .leaf)) 0xfa73 [0x4f80, 0xfe00] (.node (.node .leaf 0xfa74 [0x5145,
  0xfe00] .leaf) 0xfa75 [0x5180, 0xfe00] (.node .leaf 0xfa76 [0x52c7, 0xfe00] .leaf)))) 0xfa77
  [0x52fa, 0xfe00] (.node (.node (.node (.node .leaf 0xfa78 [0x559d, 0xfe01] .leaf) 0xfa79
  [0x5555, 0xfe00] (.node .leaf 0xfa7a [0x5599, 0xfe00] .leaf)) 0xfa7b [0x55e2, 0xfe00] (.node
  (.node .leaf 0xfa7c [0x585a, 0xfe01] .leaf) 0xfa7d [0x58b3, 0xfe00] (.node .leaf 0xfa7e [0x5944,
  0xfe00] .leaf))) 0xfa7f [0x5954, 0xfe00] (.node (.node (.node .leaf 0xfa80 [0x5a62, 0xfe00]
  .leaf) 0xfa81 [0x5b28, 0xfe00] (.node .leaf 0xfa82 [0x5ed2, 0xfe00] .leaf)) 0xfa83 [0x5ed9,
  0xfe00] (.node (.node .leaf 0xfa84 [0x5f69, 0xfe00] .leaf) 0xfa85 [0x5fad, 0xfe00] .leaf))))))

def cjkTree_3 : Tree (List Nat) :=
  (.node (.node (.node (.node (.node (.node (.node .leaf 0xfa87 [0x614e, 0xfe00] .leaf) 0xfa88
  [0x6108, 0xfe00] (.node .leaf 0xfa89 [0x618e, 0xfe01] .leaf)) 0xfa8a [0x6160, 0xfe00] (.node
  (.node .leaf 0xfa8b [0x61f2, 0xfe01] .leaf) 0xfa8c [0x6234, 0xfe00] (.node .leaf 0xfa8d [0x63c4,
  0xfe00] .leaf))) 0xfa8e [0x641c, 0xfe00] (.node (.node (.node .leaf 0xfa8f [0x6452, 0xfe00]
  .leaf) 0xfa90 [0x6556, 0xfe00] (.node .leaf 0xfa91 [0x6674, 0xfe01] .leaf)) 0xfa92 [0x6717,
  0xfe01] (.node (.node .leaf 0xfa93 [0x671b, 0xfe00] .leaf) 0xfa94 [0x6756, 0xfe00] (.node .leaf
  0xfa95 [0x6b79, 0xfe00] .leaf)))) 0xfa96 [0x6bba, 0xfe01] (.node (.node (.node (.node .leaf
  0xfa97 [0x6d41, 0xfe01] .leaf) 0xfa98 [0x6edb, 0xfe00] (.node .leaf 0xfa99 [0x6ecb, 0xfe00]
  .leaf)) 0xfa9a [0x6f22, 0xfe01] (.node (.node .leaf 0xfa9b [0x701e, 0xfe00] .leaf) 0xfa9c
  [0x716e, 0xfe01] (.node .leaf 0xfa9d [0x77a7, 0xfe00] .leaf))) 0xfa9e [0x7235, 0xfe00] (.node
  (.node (.node .leaf 0xfa9f [0x72af, 0xfe00] .leaf) 0xfaa0 [0x732a, 0xfe01] (.node .leaf 0xfaa1
  [0x7471, 0xfe00] .leaf)) 0xfaa2 [0x7506, 0xfe00] (.node (.node .leaf 0xfaa3 [0x753b, 0xfe00]
  .leaf) 0xfaa4 [0x761d, 0xfe00] (.node .leaf 0xfaa5 [0x761f, 0xfe00] .leaf))))) 0xfaa6 [0x76ca,
  0xfe01] (.node (.node (.node (.node (.node .leaf 0xfaa7 [0x76db, 0xfe00] .leaf) 0xfaa8 [0x76f4,
  0xfe00] (.node .leaf 0xfaa9 [0x774a, 0xfe00] .leaf)) 0xfaaa [0x7740, 0xfe00] (.node (.node .leaf
  0xfaab [0x78cc, 0xfe00] .leaf) 0xfaac [0x7ab1, 0xfe00] (.node .leaf 0xfaad [0x7bc0, 0xfe01]
  .leaf))) 0xfaae [0x7c7b, 0xfe00] (.node (.node (.node .leaf 0xfaaf [0x7d5b, 0xfe00] .leaf)
  0xfab0 [0x7df4, 0xfe02] (.node .leaf 0xfab1 [0x7f3e, 0xfe00] .leaf)) 0xfab2 [0x8005, 0xfe01]
  (.node (.node .leaf 0xfab3 [0x8352, 0xfe00] .leaf) 0xfab4 [0x83ef, 0xfe00] (.node .leaf 0xfab5
  [0x8779, 0xfe00] .leaf)))) 0xfab6 [0x8941, 0xfe00] (.node (.node (.node (.node .leaf 0xfab7
  [0x8986, 0xfe00] .leaf) 0xfab8 [0x8996, 0xfe01] (.node .leaf 0xfab9 [0x8abf, 0xfe00] .leaf))
  0xfaba [0x8af8, 0xfe01] (.node (.node .leaf 0xfabb [0x8acb, 0xfe00] .leaf) 0xfabc [0x8b01,
  0xfe01] (.node .leaf 0xfabd [0x8afe, 0xfe01] .leaf))) 0xfabe [0x8aed, 0xfe00] (.node (.node
  (.node .leaf 0xfabf [0x8b39, 0xfe01] .leaf) 0xfac0 [0x8b8a, 0xfe00] (.node .leaf 0xfac1 [0x8d08,
  0xfe01] .leaf)) 0xfac2 [0x8f38, 0xfe00] (.node (.node .leaf 0xfac3 [0x9072, 0xfe00] .leaf)
  0xfac4 [0x9199, 0xfe00] .leaf))))) 0xfac5 [0x9276, 0xfe00] (.node (.node (.node (.node (.node
  (.node .leaf 0xfac6 [0x967c, 0xfe00] .leaf) 0xfac7 [0x96e3, 0xfe01] (.node .leaf 0xfac8 [0x9756,
  0xfe01] .leaf)) 0xfac9 [0x97db, 0xfe00] (.node (.node .leaf 0xfaca [0x97ff, 0xfe01] .leaf)
  0xfacb [0x980b, 0xfe00] (.node .leaf 0xfacc [0x983b, 0xfe01] .leaf))) 0xfacd [0x9b12, 0xfe00]
  (.node (.node (.node .leaf 0xface [0x9f9c, 0xfe02] .leaf) 0xfacf [0x2284a, 0xfe00] (.node .leaf
  0xfad0 [0x22844, 0xfe00] .leaf)) 0xfad1 [0x233d5, 0xfe00] (.node (.node .leaf 0xfad2 [0x3b9d,
  0xfe00] .leaf) 0xfad3 [0x4018, 0xfe00] (.node .leaf 0xfad4 [0x4039, 0xfe00] .leaf)))) 0xfad5
  [0x25249, 0xfe00] (.node (.node (.node (.node .leaf 0xfad6 [0x25cd0, 0xfe00] .leaf) 0xfad7
  [0x27ed3, 0xfe00] (.node .leaf 0xfad8 [0x9f43, 0xfe00] .leaf)) 0xfad9 [0x9f8e, 0xfe00] (.node
  (.node .leaf 0x2f800 [0x4e3d, 0xfe00] .leaf) 0x2f801 [0x4e38, 0xfe00] (.node .leaf 0x2f802
  [0x4e41, 0xfe00] .leaf))) 0x2f803 [0x20122, 0xfe00] (.node (.node (.node .leaf 0x2f804 [0x4f60,
  0xfe00] .leaf) 0x2f805 [0x4fae, 0xfe01] (.node .leaf 0x2f806 [0x4fbb, 0xfe00] .leaf)) 0x2f807
  [0x5002, 0xfe00] (.node (.node .leaf 0x2f808 [0x507a, 0xfe00] .leaf) 0x2f809 [0x5099, 0xfe00]
  .leaf)))) 0x2f80a [0x50e7, 0xfe01] (.node (.node (.node (.node (.node .leaf 0x2f80b [0x50cf,
  0xfe00] .leaf) 0x2f80c [0x349e, 0xfe00] (.node .leaf 0x2f80d [0x2063a, 0xfe00] .leaf)) 0x2f80e
  [0x514d, 0xfe01] (.node (.node .leaf 0x2f80f [0x5154, 0xfe00] .leaf) 0x2f810 [0x5164, 0xfe00]
  (.node .leaf 0x2f811 [0x5177, 0xfe00] .leaf))) 0x2f812 [0x2051c, 0xfe00] (.node (.node (.node
  .leaf 0x2f813 [0x34b9, 0xfe00] .leaf) 0x2f814 [0x5167, 0xfe00] (.node .leaf 0x2f815 [0x518d,
  0xfe00] .leaf)) 0x2f816 [0x2054b, 0xfe00] (.node (.node .leaf 0x2f817 [0x5197, 0xfe00] .leaf)
  0x2f818 [0x51a4, 0xfe00] (.node .leaf 0x2f819 [0x4ecc, 0xfe00] .leaf)))) 0x2f81a [0x51ac,
  0xfe00] (.node (.node (.node (.node .leaf 0x2f81b [0x51b5, 0xfe01] .leaf) 0x2f81c [0x291df,
  0xfe00] (.node .leaf 0x2f81d [0x51f5, 0xfe00] .leaf)) 0x2f81e [0x5203, 0xfe00] (.node (.node
  .leaf 0x2f81f [0x34df, 0xfe00] .leaf) 0x2f820 [0x523b, 0xfe00] (.node .leaf 0x2f821 [0x5246,
  0xfe00] .leaf))) 0x2f822 [0x5272, 0xfe00] (.node (.node (.node .leaf 0x2f823 [0x5277, 0xfe00]
  .leaf) 0x2f824 [0x3515, 0xfe00] (.node .leaf 0x2f825 [0x52c7, 0xfe01] .leaf)) 0x2f826 [0x52c9,
  0xfe01] (.node (.node .leaf 0x2f827 [0x52e4, 0xfe01] .leaf) 0x2f828 [0x52fa, 0xfe01] .leaf))))))

def cjkTree_4 : Tree (List Nat) :=
  (.node (.node (.node (.node (.node (.node (.node .leaf 0x2f82a [0x5306, 0xfe00] .leaf) 0x2f82b
  [0x5317, 0xfe01] (.node .leaf 0x2f82c [0x5349, 0xfe00] .leaf)) 0x2f82d [0x5351, 0xfe01] (.node
  (.node .leaf 0x2f82e [0x535a, 0xfe00] .leaf) 0x2f82f [0x5373, 0xfe00] (.node .leaf 0x2f830
  [0x537d, 0xfe00] .leaf))) 0x2f831 [0x537f, 0xfe00] (.node (.node (.node .leaf 0x2f832 [0x537f,
  0xfe01] .leaf) 0x2f833 [0x537f, 0xfe02] (.node .leaf 0x2f834 [0x20a2c, 0xfe00] .leaf)) 0x2f835
  [0x7070, 0xfe00] (.node (.node .leaf 0x2f836 [0x53ca, 0xfe00] .leaf) 0x2f837 [0x53df, 0xfe00]
  (.node .leaf 0x2f838 [0x20b63, 0xfe00] .leaf)))) 0x2f839 [0x53eb, 0xfe00] (.node (.node (.node
  (.node .leaf 0x2f83a [0x53f1, 0xfe00] .leaf) 0x2f83b [0x5406, 0xfe00] (.node .leaf 0x2f83c
  [0x549e, 0xfe00] .leaf)) 0x2f83d [0x5438, 0xfe00] (.node (.node .leaf 0x2f83e [0x5448, 0xfe00]
  .leaf) 0x2f83f [0x5468, 0xfe00] (.node .leaf 0x2f840 [0x54a2, 0xfe00] .leaf))) 0x2f841 [0x54f6,
  0xfe00] (.node (.node (.node .leaf 0x2f842 [0x5510, 0xfe00] .leaf) 0x2f843 [0x5553, 0xfe00]
  (.node .leaf 0x2f844 [0x5563, 0xfe00] .leaf)) 0x2f845 [0x5584, 0xfe00] (.node (.node .leaf
  0x2f846 [0x5584, 0xfe01] .leaf) 0x2f847 [0x5599, 0xfe01] (.node .leaf 0x2f848 [0x55ab, 0xfe00]
  .leaf))))) 0x2f849 [0x55b3, 0xfe00] (.node (.node (.node (.node (.node .leaf 0x2f84a [0x55c2,
  0xfe00] .leaf) 0x2f84b [0x5716, 0xfe00] (.node .leaf 0x2f84c [0x5606, 0xfe01] .leaf)) 0x2f84d
  [0x5717, 0xfe00] (.node (.node .leaf 0x2f84e [0x5651, 0xfe00] .leaf) 0x2f84f [0x5674, 0xfe00]
  (.node .leaf 0x2f850 [0x5207, 0xfe01] .leaf))) 0x2f851 [0x58ee, 0xfe00] (.node (.node (.node
  .leaf 0x2f852 [0x57ce, 0xfe00] .leaf) 0x2f853 [0x57f4, 0xfe00] (.node .leaf 0x2f854 [0x580d,
  0xfe00] .leaf)) 0x2f855 [0x578b, 0xfe00] (.node (.node .leaf 0x2f856 [0x5832, 0xfe00] .leaf)
  0x2f857 [0x5831, 0xfe00] (.node .leaf 0x2f858 [0x58ac, 0xfe00] .leaf)))) 0x2f859 [0x214e4,
  0xfe00] (.node (.node (.node (.node .leaf 0x2f85a [0x58f2, 0xfe00] .leaf) 0x2f85b [0x58f7,
  0xfe00] (.node .leaf 0x2f85c [0x5906, 0xfe00] .leaf)) 0x2f85d [0x591a, 0xfe00] (.node (.node
  .leaf 0x2f85e [0x5922, 0xfe00] .leaf) 0x2f85f [0x5962, 0xfe00] (.node .leaf 0x2f860 [0x216a8,
  0xfe00] .leaf))) 0x2f861 [0x216ea, 0xfe00] (.node (.node (.node .leaf 0x2f862 [0x59ec, 0xfe00]
  .leaf) 0x2f863 [0x5a1b, 0xfe00] (.node .leaf 0x2f864 [0x5a27, 0xfe00] .leaf)) 0x2f865 [0x59d8,
  0xfe00] (.node (.node .leaf 0x2f866 [0x5a66, 0xfe00] .leaf) 0x2f867 [0x36ee, 0xfe00] .leaf)))))
  0x2f868 [0x36fc, 0xfe00] (.node (.node (.node (.node (.node (.node .leaf 0x2f869 [0x5b08,
  0xfe00] .leaf) 0x2f86a [0x5b3e, 0xfe00] (.node .leaf 0x2f86b [0x5b3e, 0xfe01] .leaf)) 0x2f86c
  [0x219c8, 0xfe00] (.node (.node .leaf 0x2f86d [0x5bc3, 0xfe00] .leaf) 0x2f86e [0x5bd8, 0xfe00]
  (.node .leaf 0x2f86f [0x5be7, 0xfe02] .leaf))) 0x2f870 [0x5bf3, 0xfe00] (.node (.node (.node
  .leaf 0x2f871 [0x21b18, 0xfe00] .leaf) 0x2f872 [0x5bff, 0xfe00] (.node .leaf 0x2f873 [0x5c06,
  0xfe00] .leaf)) 0x2f874 [0x5f53, 0xfe00] (.node (.node .leaf 0x2f875 [0x5c22, 0xfe00] .leaf)
  0x2f876 [0x3781, 0xfe00] (.node .leaf 0x2f877 [0x5c60, 0xfe00] .leaf)))) 0x2f878 [0x5c6e,
  0xfe01] (.node (.node (.node (.node .leaf 0x2f879 [0x5cc0, 0xfe00] .leaf) 0x2f87a [0x5c8d,
  0xfe00] (.node .leaf 0x2f87b [0x21de4, 0xfe00] .leaf)) 0x2f87c [0x5d43, 0xfe00] (.node (.node
  .leaf 0x2f87d [0x21de6, 0xfe00] .leaf) 0x2f87e [0x5d6e, 0xfe00] (.node .leaf 0x2f87f [0x5d6b,
  0xfe00] .leaf))) 0x2f880 [0x5d7c, 0xfe00] (.node (.node (.node .leaf 0x2f881 [0x5de1, 0xfe00]
  .leaf) 0x2f882 [0x5de2, 0xfe00] (.node .leaf 0x2f883 [0x382f, 0xfe00] .leaf)) 0x2f884 [0x5dfd,
  0xfe00] (.node (.node .leaf 0x2f885 [0x5e28, 0xfe00] .leaf) 0x2f886 [0x5e3d, 0xfe00] (.node
  .leaf 0x2f887 [0x5e69, 0xfe00] .leaf))))) 0x2f888 [0x3862, 0xfe00] (.node (.node (.node (.node
  (.node .leaf 0x2f889 [0x22183, 0xfe00] .leaf) 0x2f88a [0x387c, 0xfe00] (.node .leaf 0x2f88b
  [0x5eb0, 0xfe00] .leaf)) 0x2f88c [0x5eb3, 0xfe00] (.node (.node .leaf 0x2f88d [0x5eb6, 0xfe00]
  .leaf) 0x2f88e [0x5eca, 0xfe01] (.node .leaf 0x2f88f [0x2a392, 0xfe00] .leaf))) 0x2f890 [0x5efe,
  0xfe00] (.node (.node (.node .leaf 0x2f891 [0x22331, 0xfe00] .leaf) 0x2f892 [0x22331, 0xfe01]
  (.node .leaf 0x2f893 [0x8201, 0xfe00] .leaf)) 0x2f894 [0x5f22, 0xfe00] (.node (.node .leaf
  0x2f895 [0x5f22, 0xfe01] .leaf) 0x2f896 [0x38c7, 0xfe00] (.node .leaf 0x2f897 [0x232b8, 0xfe00]
  .leaf)))) 0x2f898 [0x261da, 0xfe00] (.node (.node (.node (.node .leaf 0x2f899 [0x5f62, 0xfe00]
  .leaf) 0x2f89a [0x5f6b, 0xfe00] (.node .leaf 0x2f89b [0x38e3, 0xfe00] .leaf)) 0x2f89c [0x5f9a,
  0xfe00] (.node (.node .leaf 0x2f89d [0x5fcd, 0xfe00] .leaf) 0x2f89e [0x5fd7, 0xfe00] (.node
  .leaf 0x2f89f [0x5ff9, 0xfe00] .leaf))) 0x2f8a0 [0x6081, 0xfe00] (.node (.node (.node .leaf
  0x2f8a1 [0x393a, 0xfe00] .leaf) 0x2f8a2 [0x391c, 0xfe00] (.node .leaf 0x2f8a3 [0x6094, 0xfe01]
  .leaf)) 0x2f8a4 [0x226d4, 0xfe00] (.node (.node .leaf 0x2f8a5 [0x60c7, 0xfe00] .leaf) 0x2f8a6
  [0x6148, 0xfe00] .leaf))))))

def cjkTree_5 : Tree (List Nat) :=
  (.node (.node (.node (.node (.node (.node (.node .leaf 0x2f8a8 [0x614e, 0xfe01] .leaf) 0x2f8a9
  [0x614c, 0xfe01] (.node .leaf 0x2f8aa [0x617a, 0xfe00] .leaf)) 0x2f8ab [0x618e, 0xfe02] (.node
  (.node .leaf 0x2f8ac [0x61b2, 0xfe00] .leaf) 0x2f8ad [0x61a4, 0xfe00] (.node .leaf 0x2f8ae
  [0x61af, 0xfe00] .leaf))) 0x2f8af [0x61de, 0xfe00] (.node (.node (.node .leaf 0x2f8b0 [0x61f2,
  0xfe02] .leaf) 0x2f8b1 [0x61f6, 0xfe01] (.node .leaf 0x2f8b2 [0x6210, 0xfe00] .leaf)) 0x2f8b3
  [0x621b, 0xfe00] (.node (.node .leaf 0x2f8b4 [0x625d, 0xfe00] .leaf) 0x2f8b5 [0x62b1, 0xfe00]
  (.node .leaf 0x2f8b6 [0x62d4, 0xfe00] .leaf)))) 0x2f8b7 [0x6350, 0xfe00] (.node (.node (.node
  (.node .leaf 0x2f8b8 [0x22b0c, 0xfe00] .leaf) 0x2f8b9 [0x633d, 0xfe00] (.node .leaf 0x2f8ba
  [0x62fc, 0xfe00] .leaf)) 0x2f8bb [0x6368, 0xfe00] (.node (.node .leaf 0x2f8bc [0x6383, 0xfe00]
  .leaf) 0x2f8bd [0x63e4, 0xfe00] (.node .leaf 0x2f8be [0x22bf1, 0xfe00] .leaf))) 0x2f8bf [0x6422,
  0xfe00] (.node (.node (.node .leaf 0x2f8c0 [0x63c5, 0xfe00] .leaf) 0x2f8c1 [0x63a9, 0xfe00]
  (.node .leaf 0x2f8c2 [0x3a2e, 0xfe00] .leaf)) 0x2f8c3 [0x6469, 0xfe00] (.node (.node .leaf
  0x2f8c4 [0x647e, 0xfe00] .leaf) 0x2f8c5 [0x649d, 0xfe00] (.node .leaf 0x2f8c6 [0x6477, 0xfe00]
  .leaf))))) 0x2f8c7 [0x3a6c, 0xfe00] (.node (.node (.node (.node (.node .leaf 0x2f8c8 [0x654f,
  0xfe01] .leaf) 0x2f8c9 [0x656c, 0xfe00] (.node .leaf 0x2f8ca [0x2300a, 0xfe00] .leaf)) 0x2f8cb
  [0x65e3, 0xfe00] (.node (.node .leaf 0x2f8cc [0x66f8, 0xfe00] .leaf) 0x2f8cd [0x6649, 0xfe00]
  (.node .leaf 0x2f8ce [0x3b19, 0xfe00] .leaf))) 0x2f8cf [0x6691, 0xfe01] (.node (.node (.node
  .leaf 0x2f8d0 [0x3b08, 0xfe00] .leaf) 0x2f8d1 [0x3ae4, 0xfe00] (.node .leaf 0x2f8d2 [0x5192,
  0xfe00] .leaf)) 0x2f8d3 [0x5195, 0xfe00] (.node (.node .leaf 0x2f8d4 [0x6700, 0xfe00] .leaf)
  0x2f8d5 [0x669c, 0xfe00] (.node .leaf 0x2f8d6 [0x80ad, 0xfe00] .leaf)))) 0x2f8d7 [0x43d9,
  0xfe00] (.node (.node (.node (.node .leaf 0x2f8d8 [0x6717, 0xfe02] .leaf) 0x2f8d9 [0x671b,
  0xfe01] (.node .leaf 0x2f8da [0x6721, 0xfe00] .leaf)) 0x2f8db [0x675e, 0xfe00] (.node (.node
  .leaf 0x2f8dc [0x6753, 0xfe00] .leaf) 0x2f8dd [0x233c3, 0xfe00] (.node .leaf 0x2f8de [0x3b49,
  0xfe00] .leaf))) 0x2f8df [0x67fa, 0xfe00] (.node (.node (.node .leaf 0x2f8e0 [0x6785, 0xfe00]
  .leaf) 0x2f8e1 [0x6852, 0xfe00] (.node .leaf 0x2f8e2 [0x6885, 0xfe01] .leaf)) 0x2f8e3 [0x2346d,
  0xfe00] (.node (.node .leaf 0x2f8e4 [0x688e, 0xfe00] .leaf) 0x2f8e5 [0x681f, 0xfe00] .leaf)))))
  0x2f8e6 [0x6914, 0xfe00] (.node (.node (.node (.node (.node (.node .leaf 0x2f8e7 [0x3b9d,
  0xfe01] .leaf) 0x2f8e8 [0x6942, 0xfe00] (.node .leaf 0x2f8e9 [0x69a3, 0xfe00] .leaf)) 0x2f8ea
  [0x69ea, 0xfe00] (.node (.node .leaf 0x2f8eb [0x6aa8, 0xfe00] .leaf) 0x2f8ec [0x236a3, 0xfe00]
  (.node .leaf 0x2f8ed [0x6adb, 0xfe00] .leaf))) 0x2f8ee [0x3c18, 0xfe00] (.node (.node (.node
  .leaf 0x2f8ef [0x6b21, 0xfe00] .leaf) 0x2f8f0 [0x238a7, 0xfe00] (.node .leaf 0x2f8f1 [0x6b54,
  0xfe00] .leaf)) 0x2f8f2 [0x3c4e, 0xfe00] (.node (.node .leaf 0x2f8f3 [0x6b72, 0xfe00] .leaf)
  0x2f8f4 [0x6b9f, 0xfe00] (.node .leaf 0x2f8f5 [0x6bba, 0xfe02] .leaf)))) 0x2f8f6 [0x6bbb,
  0xfe00] (.node (.node (.node (.node .leaf 0x2f8f7 [0x23a8d, 0xfe00] .leaf) 0x2f8f8 [0x21d0b,
  0xfe00] (.node .leaf 0x2f8f9 [0x23afa, 0xfe00] .leaf)) 0x2f8fa [0x6c4e, 0xfe00] (.node (.node
  .leaf 0x2f8fb [0x23cbc, 0xfe00] .leaf) 0x2f8fc [0x6cbf, 0xfe00] (.node .leaf 0x2f8fd [0x6ccd,
  0xfe00] .leaf))) 0x2f8fe [0x6c67, 0xfe00] (.node (.node (.node .leaf 0x2f8ff [0x6d16, 0xfe00]
  .leaf) 0x2f900 [0x6d3e, 0xfe00] (.node .leaf 0x2f901 [0x6d77, 0xfe01] .leaf)) 0x2f902 [0x6d41,
  0xfe02] (.node (.node .leaf 0x2f903 [0x6d69, 0xfe00] .leaf) 0x2f904 [0x6d78, 0xfe00] .leaf))))
  0x2f905 [0x6d85, 0xfe00] (.node (.node (.node (.node (.node .leaf 0x2f906 [0x23d1e, 0xfe00]
  .leaf) 0x2f907 [0x6d34, 0xfe00] (.node .leaf 0x2f908 [0x6e2f, 0xfe00] .leaf)) 0x2f909 [0x6e6e,
  0xfe00] (.node (.node .leaf 0x2f90a [0x3d33, 0xfe00] .leaf) 0x2f90b [0x6ecb, 0xfe01] (.node
  .leaf 0x2f90c [0x6ec7, 0xfe00] .leaf))) 0x2f90d [0x23ed1, 0xfe00] (.node (.node (.node .leaf
  0x2f90e [0x6df9, 0xfe00] .leaf) 0x2f90f [0x6f6e, 0xfe00] (.node .leaf 0x2f910 [0x23f5e, 0xfe00]
  .leaf)) 0x2f911 [0x23f8e, 0xfe00] (.node (.node .leaf 0x2f912 [0x6fc6, 0xfe00] .leaf) 0x2f913
  [0x7039, 0xfe00] (.node .leaf 0x2f914 [0x701e, 0xfe01] .leaf)))) 0x2f915 [0x701b, 0xfe00] (.node
  (.node (.node (.node .leaf 0x2f916 [0x3d96, 0xfe00] .leaf) 0x2f917 [0x704a, 0xfe00] (.node .leaf
  0x2f918 [0x707d, 0xfe00] .leaf)) 0x2f919 [0x7077, 0xfe00] (.node (.node .leaf 0x2f91a [0x70ad,
  0xfe00] .leaf) 0x2f91b [0x20525, 0xfe00] (.node .leaf 0x2f91c [0x7145, 0xfe00] .leaf))) 0x2f91d
  [0x24263, 0xfe00] (.node (.node (.node .leaf 0x2f91e [0x719c, 0xfe00] .leaf) 0x2f91f [0x243ab,
  0xfe00] (.node .leaf 0x2f920 [0x7228, 0xfe00] .leaf)) 0x2f921 [0x7235, 0xfe01] (.node (.node
  .leaf 0x2f922 [0x7250, 0xfe00] .leaf) 0x2f923 [0x24608, 0xfe00] .leaf))))))

def cjkTree_6 : Tree (List Nat) :=
  (.node (.node (.node (.node (.node (.node (.node .leaf 0x2f925 [0x7295, 0xfe00] .leaf) 0x2f926
  [0x24735, 0xfe00] (.node .leaf 0x2f927 [0x24814, 0xfe00] .leaf)) 0x2f928 [0x737a, 0xfe00] (.node
  (.node .leaf 0x2f929 [0x738b, 0xfe00] .leaf) 0x2f92a [0x3eac, 0xfe00] (.node .leaf 0x2f92b
  [0x73a5, 0xfe00] .leaf))) 0x2f92c [0x3eb8, 0xfe00] (.node (.node (.node .leaf 0x2f92d [0x3eb8,
  0xfe01] .leaf) 0x2f92e [0x7447, 0xfe00] (.node .leaf 0x2f92f [0x745c, 0xfe00] .leaf)) 0x2f930
  [0x7471, 0xfe01] (.node (.node .leaf 0x2f931 [0x7485, 0xfe00] .leaf) 0x2f932 [0x74ca, 0xfe00]
  (.node .leaf 0x2f933 [0x3f1b, 0xfe00] .leaf)))) 0x2f934 [0x7524, 0xfe00] (.node (.node (.node
  (.node .leaf 0x2f935 [0x24c36, 0xfe00] .leaf) 0x2f936 [0x753e, 0xfe00] (.node .leaf 0x2f937
  [0x24c92, 0xfe00] .leaf)) 0x2f938 [0x7570, 0xfe01] (.node (.node .leaf 0x2f939 [0x2219f, 0xfe00]
  .leaf) 0x2f93a [0x7610, 0xfe00] (.node .leaf 0x2f93b [0x24fa1, 0xfe00] .leaf))) 0x2f93c
  [0x24fb8, 0xfe00] (.node (.node (.node .leaf 0x2f93d [0x25044, 0xfe00] .leaf) 0x2f93e [0x3ffc,
  0xfe00] (.node .leaf 0x2f93f [0x4008, 0xfe00] .leaf)) 0x2f940 [0x76f4, 0xfe01] (.node (.node
  .leaf 0x2f941 [0x250f3, 0xfe00] .leaf) 0x2f942 [0x250f2, 0xfe00] (.node .leaf 0x2f943 [0x25119,
  0xfe00] .leaf))))) 0x2f944 [0x25133, 0xfe00] (.node (.node (.node (.node (.node .leaf 0x2f945
  [0x771e, 0xfe00] .leaf) 0x2f946 [0x771f, 0xfe00] (.node .leaf 0x2f947 [0x771f, 0xfe01] .leaf))
  0x2f948 [0x774a, 0xfe01] (.node (.node .leaf 0x2f949 [0x4039, 0xfe01] .leaf) 0x2f94a [0x778b,
  0xfe00] (.node .leaf 0x2f94b [0x4046, 0xfe00] .leaf))) 0x2f94c [0x4096, 0xfe00] (.node (.node
  (.node .leaf 0x2f94d [0x2541d, 0xfe00] .leaf) 0x2f94e [0x784e, 0xfe00] (.node .leaf 0x2f94f
  [0x788c, 0xfe01] .leaf)) 0x2f950 [0x78cc, 0xfe01] (.node (.node .leaf 0x2f951 [0x40e3, 0xfe00]
  .leaf) 0x2f952 [0x25626, 0xfe00] (.node .leaf 0x2f953 [0x7956, 0xfe01] .leaf)))) 0x2f954
  [0x2569a, 0xfe00] (.node (.node (.node (.node .leaf 0x2f955 [0x256c5, 0xfe00] .leaf) 0x2f956
  [0x798f, 0xfe01] (.node .leaf 0x2f957 [0x79eb, 0xfe00] .leaf)) 0x2f958 [0x412f, 0xfe00] (.node
  (.node .leaf 0x2f959 [0x7a40, 0xfe01] .leaf) 0x2f95a [0x7a4a, 0xfe00] (.node .leaf 0x2f95b
  [0x7a4f, 0xfe00] .leaf))) 0x2f95c [0x2597c, 0xfe00] (.node (.node (.node .leaf 0x2f95d [0x25aa7,
  0xfe00] .leaf) 0x2f95e [0x25aa7, 0xfe01] (.node .leaf 0x2f95f [0x7aee, 0xfe00] .leaf)) 0x2f960
  [0x4202, 0xfe00] (.node (.node .leaf 0x2f961 [0x25bab, 0xfe00] .leaf) 0x2f962 [0x7bc6, 0xfe00]
  .leaf))))) 0x2f963 [0x7bc9, 0xfe00] (.node (.node (.node (.node (.node (.node .leaf 0x2f964
  [0x4227, 0xfe00] .leaf) 0x2f965 [0x25c80, 0xfe00] (.node .leaf 0x2f966 [0x7cd2, 0xfe00] .leaf))
  0x2f967 [0x42a0, 0xfe00] (.node (.node .leaf 0x2f968 [0x7ce8, 0xfe00] .leaf) 0x2f969 [0x7ce3,
  0xfe00] (.node .leaf 0x2f96a [0x7d00, 0xfe00] .leaf))) 0x2f96b [0x25f86, 0xfe00] (.node (.node
  (.node .leaf 0x2f96c [0x7d63, 0xfe00] .leaf) 0x2f96d [0x4301, 0xfe00] (.node .leaf 0x2f96e
  [0x7dc7, 0xfe00] .leaf)) 0x2f96f [0x7e02, 0xfe00] (.node (.node .leaf 0x2f970 [0x7e45, 0xfe00]
  .leaf) 0x2f971 [0x4334, 0xfe00] (.node .leaf 0x2f972 [0x26228, 0xfe00] .leaf)))) 0x2f973
  [0x26247, 0xfe00] (.node (.node (.node (.node .leaf 0x2f974 [0x4359, 0xfe00] .leaf) 0x2f975
  [0x262d9, 0xfe00] (.node .leaf 0x2f976 [0x7f7a, 0xfe00] .leaf)) 0x2f977 [0x2633e, 0xfe00] (.node
  (.node .leaf 0x2f978 [0x7f95, 0xfe00] .leaf) 0x2f979 [0x7ffa, 0xfe00] (.node .leaf 0x2f97a
  [0x8005, 0xfe02] .leaf))) 0x2f97b [0x264da, 0xfe00] (.node (.node (.node .leaf 0x2f97c [0x26523,
  0xfe00] .leaf) 0x2f97d [0x8060, 0xfe00] (.node .leaf 0x2f97e [0x265a8, 0xfe00] .leaf)) 0x2f97f
  [0x8070, 0xfe00] (.node (.node .leaf 0x2f980 [0x2335f, 0xfe00] .leaf) 0x2f981 [0x43d5, 0xfe00]
  .leaf)))) 0x2f982 [0x80b2, 0xfe00] (.node (.node (.node (.node (.node .leaf 0x2f983 [0x8103,
  0xfe00] .leaf) 0x2f984 [0x440b, 0xfe00] (.node .leaf 0x2f985 [0x813e, 0xfe00] .leaf)) 0x2f986
  [0x5ab5, 0xfe00] (.node (.node .leaf 0x2f987 [0x267a7, 0xfe00] .leaf) 0x2f988 [0x267b5, 0xfe00]
  (.node .leaf 0x2f989 [0x23393, 0xfe00] .leaf))) 0x2f98a [0x2339c, 0xfe00] (.node (.node (.node
  .leaf 0x2f98b [0x8201, 0xfe01] .leaf) 0x2f98c [0x8204, 0xfe00] (.node .leaf 0x2f98d [0x8f9e,
  0xfe00] .leaf)) 0x2f98e [0x446b, 0xfe00] (.node (.node .leaf 0x2f98f [0x8291, 0xfe00] .leaf)
  0x2f990 [0x828b, 0xfe00] (.node .leaf 0x2f991 [0x829d, 0xfe00] .leaf)))) 0x2f992 [0x52b3,
  0xfe00] (.node (.node (.node (.node .leaf 0x2f993 [0x82b1, 0xfe00] .leaf) 0x2f994 [0x82b3,
  0xfe00] (.node .leaf 0x2f995 [0x82bd, 0xfe00] .leaf)) 0x2f996 [0x82e6, 0xfe00] (.node (.node
  .leaf 0x2f997 [0x26b3c, 0xfe00] .leaf) 0x2f998 [0x82e5, 0xfe01] (.node .leaf 0x2f999 [0x831d,
  0xfe00] .leaf))) 0x2f99a [0x8363, 0xfe00] (.node (.node (.node .leaf 0x2f99b [0x83ad, 0xfe00]
  .leaf) 0x2f99c [0x8323, 0xfe00] (.node .leaf 0x2f99d [0x83bd, 0xfe00] .leaf)) 0x2f99e [0x83e7,
  0xfe00] (.node (.node .leaf 0x2f99f [0x8457, 0xfe01] .leaf) 0x2f9a0 [0x8353, 0xfe00] .leaf))))))

def cjkTree_7 : Tree (List Nat) :=
  (.node (.node (.node (.node (.node (.node (.node .leaf 0x2f9a2 [0x83cc, 0xfe00] .leaf) 0x2f9a3
  [0x83dc, 0xfe00] (.node .leaf 0x2f9a4 [0x26c36, 0xfe00] .leaf)) 0x2f9a5 [0x26d6b, 0xfe00] (.node
  (.node .leaf 0x2f9a6 [0x26cd5, 0xfe00] .leaf) 0x2f9a7 [0x452b, 0xfe00] (.node .leaf 0x2f9a8
  [0x84f1, 0xfe00] .leaf))) 0x2f9a9 [0x84f3, 0xfe00] (.node (.node (.node .leaf 0x2f9aa [0x8516,
  0xfe00] .leaf) 0x2f9ab [0x273ca, 0xfe00] (.node .leaf 0x2f9ac [0x8564, 0xfe00] .leaf)) 0x2f9ad
  [0x26f2c, 0xfe00] (.node (.node .leaf 0x2f9ae [0x455d, 0xfe00] .leaf) 0x2f9af [0x4561, 0xfe00]
  (.node .leaf 0x2f9b0 [0x26fb1, 0xfe00] .leaf)))) 0x2f9b1 [0x270d2, 0xfe00] (.node (.node (.node
  (.node .leaf 0x2f9b2 [0x456b, 0xfe00] .leaf) 0x2f9b3 [0x8650, 0xfe00] (.node .leaf 0x2f9b4
  [0x865c, 0xfe01] .leaf)) 0x2f9b5 [0x8667, 0xfe00] (.node (.node .leaf 0x2f9b6 [0x8669, 0xfe00]
  .leaf) 0x2f9b7 [0x86a9, 0xfe00] (.node .leaf 0x2f9b8 [0x8688, 0xfe00] .leaf))) 0x2f9b9 [0x870e,
  0xfe00] (.node (.node (.node .leaf 0x2f9ba [0x86e2, 0xfe00] .leaf) 0x2f9bb [0x8779, 0xfe01]
  (.node .leaf 0x2f9bc [0x8728, 0xfe00] .leaf)) 0x2f9bd [0x876b, 0xfe00] (.node (.node .leaf
  0x2f9be [0x8786, 0xfe00] .leaf) 0x2f9bf [0x45d7, 0xfe00] (.node .leaf 0x2f9c0 [0x87e1, 0xfe00]
  .leaf))))) 0x2f9c1 [0x8801, 0xfe00] (.node (.node (.node (.node (.node .leaf 0x2f9c2 [0x45f9,
  0xfe00] .leaf) 0x2f9c3 [0x8860, 0xfe00] (.node .leaf 0x2f9c4 [0x8863, 0xfe00] .leaf)) 0x2f9c5
  [0x27667, 0xfe00] (.node (.node .leaf 0x2f9c6 [0x88d7, 0xfe00] .leaf) 0x2f9c7 [0x88de, 0xfe00]
  (.node .leaf 0x2f9c8 [0x4635, 0xfe00] .leaf))) 0x2f9c9 [0x88fa, 0xfe00] (.node (.node (.node
  .leaf 0x2f9ca [0x34bb, 0xfe00] .leaf) 0x2f9cb [0x278ae, 0xfe00] (.node .leaf 0x2f9cc [0x27966,
  0xfe00] .leaf)) 0x2f9cd [0x46be, 0xfe00] (.node (.node .leaf 0x2f9ce [0x46c7, 0xfe00] .leaf)
  0x2f9cf [0x8aa0, 0xfe00] (.node .leaf 0x2f9d0 [0x8aed, 0xfe01] .leaf)))) 0x2f9d1 [0x8b8a,
  0xfe01] (.node (.node (.node (.node .leaf 0x2f9d2 [0x8c55, 0xfe00] .leaf) 0x2f9d3 [0x27ca8,
  0xfe00] (.node .leaf 0x2f9d4 [0x8cab, 0xfe00] .leaf)) 0x2f9d5 [0x8cc1, 0xfe00] (.node (.node
  .leaf 0x2f9d6 [0x8d1b, 0xfe00] .leaf) 0x2f9d7 [0x8d77, 0xfe00] (.node .leaf 0x2f9d8 [0x27f2f,
  0xfe00] .leaf))) 0x2f9d9 [0x20804, 0xfe00] (.node (.node (.node .leaf 0x2f9da [0x8dcb, 0xfe00]
  .leaf) 0x2f9db [0x8dbc, 0xfe00] (.node .leaf 0x2f9dc [0x8df0, 0xfe00] .leaf)) 0x2f9dd [0x208de,
  0xfe00] (.node (.node .leaf 0x2f9de [0x8ed4, 0xfe00] .leaf) 0x2f9df [0x8f38, 0xfe01] .leaf)))))
  0x2f9e0 [0x285d2, 0xfe00] (.node (.node (.node (.node (.node (.node .leaf 0x2f9e1 [0x285ed,
  0xfe00] .leaf) 0x2f9e2 [0x9094, 0xfe00] (.node .leaf 0x2f9e3 [0x90f1, 0xfe00] .leaf)) 0x2f9e4
  [0x9111, 0xfe00] (.node (.node .leaf 0x2f9e5 [0x2872e, 0xfe00] .leaf) 0x2f9e6 [0x911b, 0xfe00]
  (.node .leaf 0x2f9e7 [0x9238, 0xfe00] .leaf))) 0x2f9e8 [0x92d7, 0xfe00] (.node (.node (.node
  .leaf 0x2f9e9 [0x92d8, 0xfe00] .leaf) 0x2f9ea [0x927c, 0xfe00] (.node .leaf 0x2f9eb [0x93f9,
  0xfe00] .leaf)) 0x2f9ec [0x9415, 0xfe00] (.node (.node .leaf 0x2f9ed [0x28bfa, 0xfe00] .leaf)
  0x2f9ee [0x958b, 0xfe00] (.node .leaf 0x2f9ef [0x4995, 0xfe00] .leaf)))) 0x2f9f0 [0x95b7,
  0xfe00] (.node (.node (.node (.node .leaf 0x2f9f1 [0x28d77, 0xfe00] .leaf) 0x2f9f2 [0x49e6,
  0xfe00] (.node .leaf 0x2f9f3 [0x96c3, 0xfe00] .leaf)) 0x2f9f4 [0x5db2, 0xfe00] (.node (.node
  .leaf 0x2f9f5 [0x9723, 0xfe00] .leaf) 0x2f9f6 [0x29145, 0xfe00] (.node .leaf 0x2f9f7 [0x2921a,
  0xfe00] .leaf))) 0x2f9f8 [0x4a6e, 0xfe00] (.node (.node (.node .leaf 0x2f9f9 [0x4a76, 0xfe00]
  .leaf) 0x2f9fa [0x97e0, 0xfe00] (.node .leaf 0x2f9fb [0x2940a, 0xfe00] .leaf)) 0x2f9fc [0x4ab2,
  0xfe00] (.node (.node .leaf 0x2f9fd [0x29496, 0xfe00] .leaf) 0x2f9fe [0x980b, 0xfe01] .leaf))))
  0x2f9ff [0x980b, 0xfe02] (.node (.node (.node (.node (.node .leaf 0x2fa00 [0x9829, 0xfe00]
  .leaf) 0x2fa01 [0x295b6, 0xfe00] (.node .leaf 0x2fa02 [0x98e2, 0xfe00] .leaf)) 0x2fa03 [0x4b33,
  0xfe00] (.node (.node .leaf 0x2fa04 [0x9929, 0xfe00] .leaf) 0x2fa05 [0x99a7, 0xfe00] (.node
  .leaf 0x2fa06 [0x99c2, 0xfe00] .leaf))) 0x2fa07 [0x99fe, 0xfe00] (.node (.node (.node .leaf
  0x2fa08 [0x4bce, 0xfe00] .leaf) 0x2fa09 [0x29b30, 0xfe00] (.node .leaf 0x2fa0a [0x9b12, 0xfe01]
  .leaf)) 0x2fa0b [0x9c40, 0xfe00] (.node (.node .leaf 0x2fa0c [0x9cfd, 0xfe00] .leaf) 0x2fa0d
  [0x4cce, 0xfe00] (.node .leaf 0x2fa0e [0x4ced, 0xfe00] .leaf)))) 0x2fa0f [0x9d67, 0xfe00] (.node
  (.node (.node (.node .leaf 0x2fa10 [0x2a0ce, 0xfe00] .leaf) 0x2fa11 [0x4cf8, 0xfe00] (.node
  .leaf 0x2fa12 [0x2a105, 0xfe00] .leaf)) 0x2fa13 [0x2a20e, 0xfe00] (.node (.node .leaf 0x2fa14
  [0x2a291, 0xfe00] .leaf) 0x2fa15 [0x9ebb, 0xfe00] (.node .leaf 0x2fa16 [0x4d56, 0xfe00] .leaf)))
  0x2fa17 [0x9ef9, 0xfe00] (.node (.node (.node .leaf 0x2fa18 [0x9efe, 0xfe00] .leaf) 0x2fa19
  [0x9f05, 0xfe00] (.node .leaf 0x2fa1a [0x9f0f, 0xfe00] .leaf)) 0x2fa1b [0x9f16, 0xfe00] (.node
  (.node .leaf 0x2fa1c [0x9f3b, 0xfe00] .leaf) 0x2fa1d [0x2a600, 0xfe00] .leaf))))))

/-- Standardized variants of the CJK compatibility ideographs. -/
def cjkTree : Tree (List Nat) :=
  (.node (.node (.node cjkTree_0 0xf97d [0x8ad2, 0xfe00] cjkTree_1) 0xf9fa [0x72c0, 0xfe00] (.node
  cjkTree_2 0xfa86 [0x60d8, 0xfe00] cjkTree_3)) 0x2f829 [0x5305, 0xfe00] (.node (.node cjkTree_4
  0x2f8a7 [0x614c, 0xfe00] cjkTree_5) 0x2f924 [0x7280, 0xfe00] (.node cjkTree_6 0x2f9a1 [0x83ca,
  0xfe00] cjkTree_7)))

end Verif.Tables
