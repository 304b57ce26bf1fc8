import Verif.Table

/-!
# The standardized variants, backwards

Written by `tools/gen_tables.py`; checked against `cjkTree` in `Verif/Cjk.lean`.
-/

namespace Verif.Tables

def cjkInverse_0 : Tree Nat :=
  (.node (.node (.node (.node (.node (.node (.node .leaf 0x349e0 0x2f80c .leaf) 0x34b90 0x2f813
  (.node .leaf 0x34bb0 0x2f9ca .leaf)) 0x34df0 0x2f81f (.node (.node .leaf 0x35150 0x2f824 .leaf)
  0x36ee0 0x2f867 (.node .leaf 0x36fc0 0x2f868 .leaf))) 0x37810 0x2f876 (.node (.node (.node .leaf
  0x382f0 0x2f883 .leaf) 0x38620 0x2f888 (.node .leaf 0x387c0 0x2f88a .leaf)) 0x38c70 0x2f896
  (.node (.node .leaf 0x38e30 0x2f89b .leaf) 0x391c0 0x2f8a2 (.node .leaf 0x393a0 0x2f8a1
  .leaf)))) 0x3a2e0 0x2f8c2 (.node (.node (.node (.node .leaf 0x3a6c0 0x2f8c7 .leaf) 0x3ae40
  0x2f8d1 (.node .leaf 0x3b080 0x2f8d0 .leaf)) 0x3b190 0x2f8ce (.node (.node .leaf 0x3b490 0x2f8de
  .leaf) 0x3b9d0 0xfad2 (.node .leaf 0x3b9d1 0x2f8e7 .leaf))) 0x3c180 0x2f8ee (.node (.node (.node
  .leaf 0x3c4e0 0x2f8f2 .leaf) 0x3d330 0x2f90a (.node .leaf 0x3d960 0x2f916 .leaf)) 0x3eac0
  0x2f92a (.node (.node .leaf 0x3eb80 0x2f92c .leaf) 0x3eb81 0x2f92d (.node .leaf 0x3f1b0 0x2f933
  .leaf))))) 0x3ffc0 0x2f93e (.node (.node (.node (.node (.node .leaf 0x40080 0x2f93f .leaf)
  0x40180 0xfad3 (.node .leaf 0x40390 0xfad4 .leaf)) 0x40391 0x2f949 (.node (.node .leaf 0x40460
  0x2f94b .leaf) 0x40960 0x2f94c (.node .leaf 0x40e30 0x2f951 .leaf))) 0x412f0 0x2f958 (.node
  (.node (.node .leaf 0x42020 0x2f960 .leaf) 0x42270 0x2f964 (.node .leaf 0x42a00 0x2f967 .leaf))
  0x43010 0x2f96d (.node (.node .leaf 0x43340 0x2f971 .leaf) 0x43590 0x2f974 (.node .leaf 0x43d50
  0x2f981 .leaf)))) 0x43d90 0x2f8d7 (.node (.node (.node (.node .leaf 0x440b0 0x2f984 .leaf)
  0x446b0 0x2f98e (.node .leaf 0x452b0 0x2f9a7 .leaf)) 0x455d0 0x2f9ae (.node (.node .leaf 0x45610
  0x2f9af .leaf) 0x456b0 0x2f9b2 (.node .leaf 0x45d70 0x2f9bf .leaf))) 0x45f90 0x2f9c2 (.node
  (.node (.node .leaf 0x46350 0x2f9c8 .leaf) 0x46be0 0x2f9cd (.node .leaf 0x46c70 0x2f9ce .leaf))
  0x49950 0x2f9ef (.node (.node .leaf 0x49e60 0x2f9f2 .leaf) 0x4a6e0 0x2f9f8 .leaf))))) 0x4a760
  0x2f9f9 (.node (.node (.node (.node (.node (.node .leaf 0x4ab20 0x2f9fc .leaf) 0x4b330 0x2fa03
  (.node .leaf 0x4bce0 0x2fa08 .leaf)) 0x4cce0 0x2fa0d (.node (.node .leaf 0x4ced0 0x2fa0e .leaf)
  0x4cf80 0x2fa11 (.node .leaf 0x4d560 0x2fa16 .leaf))) 0x4e0d0 0xf967 (.node (.node (.node .leaf
  0x4e260 0xfa70 .leaf) 0x4e320 0xf905 (.node .leaf 0x4e380 0x2f801 .leaf)) 0x4e390 0xf95e (.node
  (.node .leaf 0x4e3d0 0x2f800 .leaf) 0x4e410 0x2f802 (.node .leaf 0x4e820 0xf91b .leaf))))
  0x4e860 0xf9ba (.node (.node (.node (.node .leaf 0x4eae0 0xf977 .leaf) 0x4ec00 0xf9fd (.node
  .leaf 0x4ecc0 0x2f819 .leaf)) 0x4ee40 0xf9a8 (.node (.node .leaf 0x4f600 0x2f804 .leaf) 0x4f800
  0xfa73 (.node .leaf 0x4f860 0xf92d .leaf))) 0x4f8b0 0xf9b5 (.node (.node (.node .leaf 0x4fae0
  0xfa30 .leaf) 0x4fae1 0x2f805 (.node .leaf 0x4fbb0 0x2f806 .leaf)) 0x4fbf0 0xf965 (.node (.node
  .leaf 0x50020 0x2f807 .leaf) 0x502b0 0xf9d4 (.node .leaf 0x507a0 0x2f808 .leaf))))) 0x50990
  0x2f809 (.node (.node (.node (.node (.node .leaf 0x50cf0 0x2f80b .leaf) 0x50da0 0xf9bb (.node
  .leaf 0x50e70 0xfa31 .leaf)) 0x50e71 0x2f80a (.node (.node .leaf 0x51400 0xfa0c .leaf) 0x51450
  0xfa74 (.node .leaf 0x514d0 0xfa32 .leaf))) 0x514d1 0x2f80e (.node (.node (.node .leaf 0x51540
  0x2f80f .leaf) 0x51640 0x2f810 (.node .leaf 0x51670 0x2f814 .leaf)) 0x51680 0xfa72 (.node (.node
  .leaf 0x51690 0xf978 .leaf) 0x516d0 0xf9d1 (.node .leaf 0x51770 0x2f811 .leaf)))) 0x51800 0xfa75
  (.node (.node (.node (.node .leaf 0x518d0 0x2f815 .leaf) 0x51920 0x2f8d2 (.node .leaf 0x51950
  0x2f8d3 .leaf)) 0x51970 0x2f817 (.node (.node .leaf 0x51a40 0x2f818 .leaf) 0x51ac0 0x2f81a
  (.node .leaf 0x51b50 0xfa71 .leaf))) 0x51b51 0x2f81b (.node (.node (.node .leaf 0x51b70 0xf92e
  .leaf) 0x51c90 0xf979 (.node .leaf 0x51cc0 0xf955 .leaf)) 0x51dc0 0xf954 (.node (.node .leaf
  0x51de0 0xfa15 .leaf) 0x51f50 0x2f81d .leaf))))))

def cjkInverse_1 : Tree Nat :=
  (.node (.node (.node (.node (.node (.node (.node .leaf 0x52070 0xfa00 .leaf) 0x52071 0x2f850
  (.node .leaf 0x52170 0xf99c .leaf)) 0x52290 0xf9dd (.node (.node .leaf 0x523a0 0xf9ff .leaf)
  0x523b0 0x2f820 (.node .leaf 0x52460 0x2f821 .leaf))) 0x52720 0x2f822 (.node (.node (.node .leaf
  0x52770 0x2f823 .leaf) 0x52890 0xf9c7 (.node .leaf 0x529b0 0xf98a .leaf)) 0x52a30 0xf99d (.node
  (.node .leaf 0x52b30 0x2f992 .leaf) 0x52c70 0xfa76 (.node .leaf 0x52c71 0x2f825 .leaf))))
  0x52c90 0xfa33 (.node (.node (.node (.node .leaf 0x52c91 0x2f826 .leaf) 0x52d20 0xf952 (.node
  .leaf 0x52de0 0xf92f .leaf)) 0x52e40 0xfa34 (.node (.node .leaf 0x52e41 0x2f827 .leaf) 0x52f50
  0xf97f (.node .leaf 0x52fa0 0xfa77 .leaf))) 0x52fa1 0x2f828 (.node (.node (.node .leaf 0x53050
  0x2f829 .leaf) 0x53060 0x2f82a (.node .leaf 0x53170 0xf963 .leaf)) 0x53171 0x2f82b (.node (.node
  .leaf 0x533f0 0xf9eb .leaf) 0x53490 0x2f82c (.node .leaf 0x53510 0xfa35 .leaf))))) 0x53511
  0x2f82d (.node (.node (.node (.node (.node .leaf 0x535a0 0x2f82e .leaf) 0x53730 0x2f82f (.node
  .leaf 0x53750 0xf91c .leaf)) 0x537d0 0x2f830 (.node (.node .leaf 0x537f0 0x2f831 .leaf) 0x537f1
  0x2f832 (.node .leaf 0x537f2 0x2f833 .leaf))) 0x53c30 0xf96b (.node (.node (.node .leaf 0x53ca0
  0x2f836 .leaf) 0x53df0 0x2f837 (.node .leaf 0x53e50 0xf906 .leaf)) 0x53eb0 0x2f839 (.node (.node
  .leaf 0x53f10 0x2f83a .leaf) 0x54060 0x2f83b (.node .leaf 0x540f0 0xf9de .leaf)))) 0x541d0
  0xf9ed (.node (.node (.node (.node .leaf 0x54380 0x2f83d .leaf) 0x54420 0xf980 (.node .leaf
  0x54480 0x2f83e .leaf)) 0x54680 0x2f83f (.node (.node .leaf 0x549e0 0x2f83c .leaf) 0x54a20
  0x2f840 (.node .leaf 0x54bd0 0xf99e .leaf))) 0x54f60 0x2f841 (.node (.node (.node .leaf 0x55100
  0x2f842 .leaf) 0x55530 0x2f843 (.node .leaf 0x55550 0xfa79 .leaf)) 0x55630 0x2f844 (.node (.node
  .leaf 0x55840 0x2f845 .leaf) 0x55841 0x2f846 .leaf))))) 0x55870 0xf90b (.node (.node (.node
  (.node (.node (.node .leaf 0x55990 0xfa7a .leaf) 0x55991 0x2f847 (.node .leaf 0x559d0 0xfa36
  .leaf)) 0x559d1 0xfa78 (.node (.node .leaf 0x55ab0 0x2f848 .leaf) 0x55b30 0x2f849 (.node .leaf
  0x55c00 0xfa0d .leaf))) 0x55c20 0x2f84a (.node (.node (.node .leaf 0x55e20 0xfa7b .leaf) 0x56060
  0xfa37 (.node .leaf 0x56061 0x2f84c .leaf)) 0x56510 0x2f84e (.node (.node .leaf 0x56680 0xfa38
  .leaf) 0x56740 0x2f84f (.node .leaf 0x56f90 0xf9a9 .leaf)))) 0x57160 0x2f84b (.node (.node
  (.node (.node .leaf 0x57170 0x2f84d .leaf) 0x578b0 0x2f855 (.node .leaf 0x57ce0 0x2f852 .leaf))
  0x57f40 0x2f853 (.node (.node .leaf 0x580d0 0x2f854 .leaf) 0x58310 0x2f857 (.node .leaf 0x58320
  0x2f856 .leaf))) 0x58400 0xfa39 (.node (.node (.node .leaf 0x585a0 0xfa10 .leaf) 0x585a1 0xfa7c
  (.node .leaf 0x585e0 0xf96c .leaf)) 0x58a80 0xfa3a (.node (.node .leaf 0x58ac0 0x2f858 .leaf)
  0x58b30 0xfa7d .leaf)))) 0x58d80 0xf94a (.node (.node (.node (.node (.node .leaf 0x58df0 0xf942
  .leaf) 0x58ee0 0x2f851 (.node .leaf 0x58f20 0x2f85a .leaf)) 0x58f70 0x2f85b (.node (.node .leaf
  0x59060 0x2f85c .leaf) 0x591a0 0x2f85d (.node .leaf 0x59220 0x2f85e .leaf))) 0x59440 0xfa7e
  (.node (.node (.node .leaf 0x59480 0xf90c .leaf) 0x59510 0xf909 (.node .leaf 0x59540 0xfa7f
  .leaf)) 0x59620 0x2f85f (.node (.node .leaf 0x59730 0xf981 .leaf) 0x59d80 0x2f865 (.node .leaf
  0x59ec0 0x2f862 .leaf)))) 0x5a1b0 0x2f863 (.node (.node (.node (.node .leaf 0x5a270 0x2f864
  .leaf) 0x5a620 0xfa80 (.node .leaf 0x5a660 0x2f866 .leaf)) 0x5ab50 0x2f986 (.node (.node .leaf
  0x5b080 0x2f869 .leaf) 0x5b280 0xfa81 (.node .leaf 0x5b3e0 0x2f86a .leaf))) 0x5b3e1 0x2f86b
  (.node (.node (.node .leaf 0x5b850 0xfa04 .leaf) 0x5bc30 0x2f86d (.node .leaf 0x5bd80 0x2f86e
  .leaf)) 0x5be70 0xf95f (.node (.node .leaf 0x5be71 0xf9aa .leaf) 0x5be72 0x2f86f .leaf))))))

def cjkInverse_2 : Tree Nat :=
  (.node (.node (.node (.node (.node (.node (.node .leaf 0x5bf30 0x2f870 .leaf) 0x5bff0 0x2f872
  (.node .leaf 0x5c060 0x2f873 .leaf)) 0x5c220 0x2f875 (.node (.node .leaf 0x5c3f0 0xf9bd .leaf)
  0x5c600 0x2f877 (.node .leaf 0x5c620 0xf94b .leaf))) 0x5c640 0xfa3b (.node (.node (.node .leaf
  0x5c650 0xf9df .leaf) 0x5c6e0 0xfa3c (.node .leaf 0x5c6e1 0x2f878 .leaf)) 0x5c8d0 0x2f87a (.node
  (.node .leaf 0x5cc00 0x2f879 .leaf) 0x5d190 0xf9d5 (.node .leaf 0x5d430 0x2f87c .leaf))))
  0x5d500 0xf921 (.node (.node (.node (.node .leaf 0x5d6b0 0x2f87f .leaf) 0x5d6e0 0x2f87e (.node
  .leaf 0x5d7c0 0x2f880 .leaf)) 0x5db20 0x2f9f4 (.node (.node .leaf 0x5dba0 0xf9ab .leaf) 0x5de10
  0x2f881 (.node .leaf 0x5de20 0x2f882 .leaf))) 0x5dfd0 0x2f884 (.node (.node (.node .leaf 0x5e280
  0x2f885 .leaf) 0x5e3d0 0x2f886 (.node .leaf 0x5e690 0x2f887 .leaf)) 0x5e740 0xf98e (.node (.node
  .leaf 0x5ea60 0xfa01 .leaf) 0x5eb00 0x2f88b (.node .leaf 0x5eb30 0x2f88c .leaf))))) 0x5eb60
  0x2f88d (.node (.node (.node (.node (.node .leaf 0x5ec90 0xf9a2 .leaf) 0x5eca0 0xf928 (.node
  .leaf 0x5eca1 0x2f88e .leaf)) 0x5ed20 0xfa82 (.node (.node .leaf 0x5ed30 0xfa0b .leaf) 0x5ed90
  0xfa83 (.node .leaf 0x5eec0 0xf982 .leaf))) 0x5efe0 0x2f890 (.node (.node (.node .leaf 0x5f040
  0xf943 .leaf) 0x5f220 0x2f894 (.node .leaf 0x5f221 0x2f895 .leaf)) 0x5f530 0x2f874 (.node (.node
  .leaf 0x5f620 0x2f899 .leaf) 0x5f690 0xfa84 (.node .leaf 0x5f6b0 0x2f89a .leaf)))) 0x5f8b0
  0xf9d8 (.node (.node (.node (.node .leaf 0x5f9a0 0x2f89c .leaf) 0x5fa90 0xf966 (.node .leaf
  0x5fad0 0xfa85 .leaf)) 0x5fcd0 0x2f89d (.node (.node .leaf 0x5fd70 0x2f89e .leaf) 0x5ff50 0xf9a3
  (.node .leaf 0x5ff90 0x2f89f .leaf))) 0x60120 0xf960 (.node (.node (.node .leaf 0x601c0 0xf9ac
  .leaf) 0x60750 0xfa6b (.node .leaf 0x60810 0x2f8a0 .leaf)) 0x60940 0xfa3d (.node (.node .leaf
  0x60941 0x2f8a3 .leaf) 0x60c70 0x2f8a5 .leaf))))) 0x60d80 0xfa86 (.node (.node (.node (.node
  (.node (.node .leaf 0x60e10 0xf9b9 .leaf) 0x61080 0xfa88 (.node .leaf 0x61440 0xf9d9 .leaf))
  0x61480 0x2f8a6 (.node (.node .leaf 0x614c0 0x2f8a7 .leaf) 0x614c1 0x2f8a9 (.node .leaf 0x614e0
  0xfa87 .leaf))) 0x614e1 0x2f8a8 (.node (.node (.node .leaf 0x61600 0xfa8a .leaf) 0x61680 0xfa3e
  (.node .leaf 0x617a0 0x2f8aa .leaf)) 0x618e0 0xfa3f (.node (.node .leaf 0x618e1 0xfa89 .leaf)
  0x618e2 0x2f8ab (.node .leaf 0x61900 0xf98f .leaf)))) 0x61a40 0x2f8ad (.node (.node (.node
  (.node .leaf 0x61af0 0x2f8ae .leaf) 0x61b20 0x2f8ac (.node .leaf 0x61de0 0x2f8af .leaf)) 0x61f20
  0xfa40 (.node (.node .leaf 0x61f21 0xfa8b .leaf) 0x61f22 0x2f8b0 (.node .leaf 0x61f60 0xf90d
  .leaf))) 0x61f61 0x2f8b1 (.node (.node (.node .leaf 0x62000 0xf990 .leaf) 0x62100 0x2f8b2 (.node
  .leaf 0x621b0 0x2f8b3 .leaf)) 0x622e0 0xf9d2 (.node (.node .leaf 0x62340 0xfa8c .leaf) 0x625d0
  0x2f8b4 (.node .leaf 0x62b10 0x2f8b5 .leaf))))) 0x62c90 0xf925 (.node (.node (.node (.node
  (.node .leaf 0x62cf0 0xf95b .leaf) 0x62d30 0xfa02 (.node .leaf 0x62d40 0x2f8b6 .leaf)) 0x62fc0
  0x2f8ba (.node (.node .leaf 0x62fe0 0xf973 .leaf) 0x633d0 0x2f8b9 (.node .leaf 0x63500 0x2f8b7
  .leaf))) 0x63680 0x2f8bb (.node (.node (.node .leaf 0x637b0 0xf9a4 .leaf) 0x63830 0x2f8bc (.node
  .leaf 0x63a00 0xf975 .leaf)) 0x63a90 0x2f8c1 (.node (.node .leaf 0x63c40 0xfa8d .leaf) 0x63c50
  0x2f8c0 (.node .leaf 0x63e40 0x2f8bd .leaf)))) 0x641c0 0xfa8e (.node (.node (.node (.node .leaf
  0x64220 0x2f8bf .leaf) 0x64520 0xfa8f (.node .leaf 0x64690 0x2f8c3 .leaf)) 0x64770 0x2f8c6
  (.node (.node .leaf 0x647e0 0x2f8c4 .leaf) 0x649a0 0xf991 (.node .leaf 0x649d0 0x2f8c5 .leaf)))
  0x64c40 0xf930 (.node (.node (.node .leaf 0x654f0 0xfa41 .leaf) 0x654f1 0x2f8c8 (.node .leaf
  0x65560 0xfa90 .leaf)) 0x656c0 0x2f8c9 (.node (.node .leaf 0x65780 0xf969 .leaf) 0x65990 0xf9be
  .leaf))))))

def cjkInverse_3 : Tree Nat :=
  (.node (.node (.node (.node (.node (.node (.node .leaf 0x65e20 0xfa42 .leaf) 0x65e30 0x2f8cb
  (.node .leaf 0x66130 0xf9e0 .leaf)) 0x66490 0x2f8cd (.node (.node .leaf 0x66740 0xfa12 .leaf)
  0x66741 0xfa91 (.node .leaf 0x66880 0xf9c5 .leaf))) 0x66910 0xfa43 (.node (.node (.node .leaf
  0x66911 0x2f8cf .leaf) 0x669c0 0x2f8d5 (.node .leaf 0x66b40 0xfa06 .leaf)) 0x66c60 0xf98b (.node
  (.node .leaf 0x66f40 0xf901 .leaf) 0x66f80 0x2f8cc (.node .leaf 0x67000 0x2f8d4 .leaf))))
  0x67170 0xf929 (.node (.node (.node (.node .leaf 0x67171 0xfa92 .leaf) 0x67172 0x2f8d8 (.node
  .leaf 0x671b0 0xfa93 .leaf)) 0x671b1 0x2f8d9 (.node (.node .leaf 0x67210 0x2f8da .leaf) 0x674e0
  0xf9e1 (.node .leaf 0x67530 0x2f8dc .leaf))) 0x67560 0xfa94 (.node (.node (.node .leaf 0x675e0
  0x2f8db .leaf) 0x677b0 0xf9c8 (.node .leaf 0x67850 0x2f8e0 .leaf)) 0x67970 0xf9f4 (.node (.node
  .leaf 0x67f30 0xf9c9 .leaf) 0x67fa0 0x2f8df (.node .leaf 0x68170 0xf9da .leaf))))) 0x681f0
  0x2f8e5 (.node (.node (.node (.node (.node .leaf 0x68520 0x2f8e1 .leaf) 0x68810 0xf97a (.node
  .leaf 0x68850 0xfa44 .leaf)) 0x68851 0x2f8e2 (.node (.node .leaf 0x688e0 0x2f8e4 .leaf) 0x68a80
  0xf9e2 (.node .leaf 0x69140 0x2f8e6 .leaf))) 0x69420 0x2f8e8 (.node (.node (.node .leaf 0x69a30
  0x2f8e9 .leaf) 0x69ea0 0x2f8ea (.node .leaf 0x6a020 0xf914 .leaf)) 0x6a021 0xf95c (.node (.node
  .leaf 0x6a022 0xf9bf .leaf) 0x6a130 0xf94c (.node .leaf 0x6aa80 0x2f8eb .leaf)))) 0x6ad30 0xf931
  (.node (.node (.node (.node .leaf 0x6adb0 0x2f8ed .leaf) 0x6b040 0xf91d (.node .leaf 0x6b210
  0x2f8ef .leaf)) 0x6b540 0x2f8f1 (.node (.node .leaf 0x6b720 0x2f8f3 .leaf) 0x6b770 0xf98c (.node
  .leaf 0x6b790 0xfa95 .leaf))) 0x6b9f0 0x2f8f4 (.node (.node (.node .leaf 0x6bae0 0xf9a5 .leaf)
  0x6bba0 0xf970 (.node .leaf 0x6bba1 0xfa96 .leaf)) 0x6bba2 0x2f8f5 (.node (.node .leaf 0x6bbb0
  0x2f8f6 .leaf) 0x6c4e0 0x2f8fa .leaf))))) 0x6c670 0x2f8fe (.node (.node (.node (.node (.node
  (.node .leaf 0x6c880 0xf972 .leaf) 0x6cbf0 0x2f8fc (.node .leaf 0x6ccc0 0xf968 .leaf)) 0x6ccd0
  0x2f8fd (.node (.node .leaf 0x6ce50 0xf9e3 .leaf) 0x6d160 0x2f8ff (.node .leaf 0x6d1b0 0xf915
  .leaf))) 0x6d1e0 0xfa05 (.node (.node (.node .leaf 0x6d340 0x2f907 .leaf) 0x6d3e0 0x2f900 (.node
  .leaf 0x6d410 0xf9ca .leaf)) 0x6d411 0xfa97 (.node (.node .leaf 0x6d412 0x2f902 .leaf) 0x6d690
  0x2f903 (.node .leaf 0x6d6a0 0xf92a .leaf)))) 0x6d770 0xfa45 (.node (.node (.node (.node .leaf
  0x6d771 0x2f901 .leaf) 0x6d780 0x2f904 (.node .leaf 0x6d850 0x2f905 .leaf)) 0x6dcb0 0xf9f5
  (.node (.node .leaf 0x6dda0 0xf94d .leaf) 0x6dea0 0xf9d6 (.node .leaf 0x6df90 0x2f90e .leaf)))
  0x6e1a0 0xfa46 (.node (.node (.node .leaf 0x6e2f0 0x2f908 .leaf) 0x6e6e0 0x2f909 (.node .leaf
  0x6e9c0 0xf9cb .leaf)) 0x6eba0 0xf9ec (.node (.node .leaf 0x6ec70 0x2f90c .leaf) 0x6ecb0 0xfa99
  .leaf)))) 0x6ecb1 0x2f90b (.node (.node (.node (.node (.node .leaf 0x6ed10 0xf904 .leaf) 0x6edb0
  0xfa98 (.node .leaf 0x6f0f0 0xf94e .leaf)) 0x6f220 0xfa47 (.node (.node .leaf 0x6f221 0xfa9a
  .leaf) 0x6f230 0xf992 (.node .leaf 0x6f6e0 0x2f90f .leaf))) 0x6fc60 0x2f912 (.node (.node (.node
  .leaf 0x6feb0 0xf922 .leaf) 0x6ffe0 0xf984 (.node .leaf 0x701b0 0x2f915 .leaf)) 0x701e0 0xfa9b
  (.node (.node .leaf 0x701e1 0x2f914 .leaf) 0x70390 0x2f913 (.node .leaf 0x704a0 0x2f917
  .leaf)))) 0x70700 0x2f835 (.node (.node (.node (.node .leaf 0x70770 0x2f919 .leaf) 0x707d0
  0x2f918 (.node .leaf 0x70990 0xf9fb .leaf)) 0x70ad0 0x2f91a (.node (.node .leaf 0x70c80 0xf99f
  .leaf) 0x70d90 0xf916 (.node .leaf 0x71450 0x2f91c .leaf))) 0x71490 0xf993 (.node (.node (.node
  .leaf 0x716e0 0xfa48 .leaf) 0x716e1 0xfa9c (.node .leaf 0x719c0 0x2f91e .leaf)) 0x71ce0 0xf9c0
  (.node (.node .leaf 0x71d00 0xf9ee .leaf) 0x72100 0xf932 .leaf))))))

def cjkInverse_4 : Tree Nat :=
  (.node (.node (.node (.node (.node (.node (.node .leaf 0x72280 0x2f920 .leaf) 0x722b0 0xfa49
  (.node .leaf 0x72350 0xfa9e .leaf)) 0x72351 0x2f921 (.node (.node .leaf 0x72500 0x2f922 .leaf)
  0x72620 0xf946 (.node .leaf 0x72800 0x2f924 .leaf))) 0x72950 0x2f925 (.node (.node (.node .leaf
  0x72af0 0xfa9f .leaf) 0x72c00 0xf9fa (.node .leaf 0x72fc0 0xf92b .leaf)) 0x732a0 0xfa16 (.node
  (.node .leaf 0x732a1 0xfaa0 .leaf) 0x73750 0xf9a7 (.node .leaf 0x737a0 0x2f928 .leaf)))) 0x73870
  0xf961 (.node (.node (.node (.node .leaf 0x73871 0xf9db .leaf) 0x738b0 0x2f929 (.node .leaf
  0x73a50 0x2f92b .leaf)) 0x73b20 0xf9ad (.node (.node .leaf 0x73de0 0xf917 .leaf) 0x74060 0xf9e4
  (.node .leaf 0x74090 0xf9cc .leaf))) 0x74220 0xfa4a (.node (.node (.node .leaf 0x74470 0x2f92e
  .leaf) 0x745c0 0x2f92f (.node .leaf 0x74690 0xf9ae .leaf)) 0x74710 0xfaa1 (.node (.node .leaf
  0x74711 0x2f930 .leaf) 0x74850 0x2f931 (.node .leaf 0x74890 0xf994 .leaf))))) 0x74980 0xf9ef
  (.node (.node (.node (.node (.node .leaf 0x74ca0 0x2f932 .leaf) 0x75060 0xfaa2 (.node .leaf
  0x75240 0x2f934 .leaf)) 0x753b0 0xfaa3 (.node (.node .leaf 0x753e0 0x2f936 .leaf) 0x75590 0xf9cd
  (.node .leaf 0x75650 0xf976 .leaf))) 0x75700 0xf962 (.node (.node (.node .leaf 0x75701 0x2f938
  .leaf) 0x75e20 0xf9e5 (.node .leaf 0x76100 0x2f93a .leaf)) 0x761d0 0xfaa4 (.node (.node .leaf
  0x761f0 0xfaa5 .leaf) 0x76420 0xf9c1 (.node .leaf 0x76690 0xf90e .leaf)))) 0x76ca0 0xfa17 (.node
  (.node (.node (.node .leaf 0x76ca1 0xfaa6 .leaf) 0x76db0 0xfaa7 (.node .leaf 0x76e70 0xf933
  .leaf)) 0x76f40 0xfaa8 (.node (.node .leaf 0x76f41 0x2f940 .leaf) 0x77010 0xf96d (.node .leaf
  0x771e0 0x2f945 .leaf))) 0x771f0 0x2f946 (.node (.node (.node .leaf 0x771f1 0x2f947 .leaf)
  0x77400 0xfaaa (.node .leaf 0x774a0 0xfaa9 .leaf)) 0x774a1 0x2f948 (.node (.node .leaf 0x778b0
  0x2f94a .leaf) 0x77a70 0xfa9d .leaf))))) 0x784e0 0x2f94e (.node (.node (.node (.node (.node
  (.node .leaf 0x786b0 0xf9ce .leaf) 0x788c0 0xf93b (.node .leaf 0x788c1 0x2f94f .leaf)) 0x78910
  0xfa4b (.node (.node .leaf 0x78ca0 0xf947 .leaf) 0x78cc0 0xfaab (.node .leaf 0x78cc1 0x2f950
  .leaf))) 0x78fb0 0xf964 (.node (.node (.node .leaf 0x792a0 0xf985 .leaf) 0x793c0 0xfa18 (.node
  .leaf 0x793e0 0xfa4c .leaf)) 0x79480 0xfa4e (.node (.node .leaf 0x79490 0xfa4d .leaf) 0x79500
  0xfa4f (.node .leaf 0x79560 0xfa50 .leaf)))) 0x79561 0x2f953 (.node (.node (.node (.node .leaf
  0x795d0 0xfa51 .leaf) 0x795e0 0xfa19 (.node .leaf 0x79650 0xfa1a .leaf)) 0x797f0 0xf93c (.node
  (.node .leaf 0x798d0 0xfa52 .leaf) 0x798e0 0xfa53 (.node .leaf 0x798f0 0xfa1b .leaf))) 0x798f1
  0x2f956 (.node (.node (.node .leaf 0x79ae0 0xf9b6 .leaf) 0x79ca0 0xf995 (.node .leaf 0x79eb0
  0x2f957 .leaf)) 0x7a1c0 0xf956 (.node (.node .leaf 0x7a400 0xfa54 .leaf) 0x7a401 0x2f959 (.node
  .leaf 0x7a4a0 0x2f95a .leaf))))) 0x7a4f0 0x2f95b (.node (.node (.node (.node (.node .leaf
  0x7a810 0xfa55 .leaf) 0x7ab10 0xfaac (.node .leaf 0x7acb0 0xf9f7 .leaf)) 0x7aee0 0x2f95f (.node
  (.node .leaf 0x7b200 0xf9f8 .leaf) 0x7bc00 0xfa56 (.node .leaf 0x7bc01 0xfaad .leaf))) 0x7bc60
  0x2f962 (.node (.node (.node .leaf 0x7bc90 0x2f963 .leaf) 0x7c3e0 0xf9a6 (.node .leaf 0x7c600
  0xf944 .leaf)) 0x7c7b0 0xfaae (.node (.node .leaf 0x7c920 0xf9f9 .leaf) 0x7cbe0 0xfa1d (.node
  .leaf 0x7cd20 0x2f966 .leaf)))) 0x7cd60 0xfa03 (.node (.node (.node (.node .leaf 0x7ce30 0x2f969
  .leaf) 0x7ce70 0xf97b (.node .leaf 0x7ce80 0x2f968 .leaf)) 0x7d000 0x2f96a (.node (.node .leaf
  0x7d100 0xf9cf .leaf) 0x7d220 0xf96a (.node .leaf 0x7d2f0 0xf94f .leaf))) 0x7d5b0 0xfaaf (.node
  (.node (.node .leaf 0x7d630 0x2f96c .leaf) 0x7da00 0xf93d (.node .leaf 0x7dbe0 0xf957 .leaf))
  0x7dc70 0x2f96e (.node (.node .leaf 0x7df40 0xf996 .leaf) 0x7df41 0xfa57 .leaf))))))

def cjkInverse_5 : Tree Nat :=
  (.node (.node (.node (.node (.node (.node (.node .leaf 0x7e020 0x2f96f .leaf) 0x7e090 0xfa58
  (.node .leaf 0x7e370 0xf950 .leaf)) 0x7e410 0xfa59 (.node (.node .leaf 0x7e450 0x2f970 .leaf)
  0x7f3e0 0xfab1 (.node .leaf 0x7f720 0xfa5a .leaf))) 0x7f790 0xf9e6 (.node (.node (.node .leaf
  0x7f7a0 0x2f976 .leaf) 0x7f850 0xf90f (.node .leaf 0x7f950 0x2f978 .leaf)) 0x7f9a0 0xf9af (.node
  (.node .leaf 0x7fbd0 0xfa1e .leaf) 0x7ffa0 0x2f979 (.node .leaf 0x80010 0xf934 .leaf)))) 0x80050
  0xfa5b (.node (.node (.node (.node .leaf 0x80051 0xfab2 .leaf) 0x80052 0x2f97a (.node .leaf
  0x80460 0xf9b0 .leaf)) 0x80600 0x2f97d (.node (.node .leaf 0x806f0 0xf997 .leaf) 0x80700 0x2f97f
  (.node .leaf 0x807e0 0xf945 .leaf))) 0x808b0 0xf953 (.node (.node (.node .leaf 0x80ad0 0x2f8d6
  .leaf) 0x80b20 0x2f982 (.node .leaf 0x81030 0x2f983 .leaf)) 0x813e0 0x2f985 (.node (.node .leaf
  0x81d80 0xf926 .leaf) 0x81e80 0xf9f6 (.node .leaf 0x81ed0 0xfa5c .leaf))))) 0x82010 0x2f893
  (.node (.node (.node (.node (.node .leaf 0x82011 0x2f98b .leaf) 0x82040 0x2f98c (.node .leaf
  0x82180 0xfa6d .leaf)) 0x826f0 0xf97c (.node (.node .leaf 0x82790 0xfa5d .leaf) 0x82791 0xfa5e
  (.node .leaf 0x828b0 0x2f990 .leaf))) 0x82910 0x2f98f (.node (.node (.node .leaf 0x829d0 0x2f991
  .leaf) 0x82b10 0x2f993 (.node .leaf 0x82b30 0x2f994 .leaf)) 0x82bd0 0x2f995 (.node (.node .leaf
  0x82e50 0xf974 .leaf) 0x82e51 0x2f998 (.node .leaf 0x82e60 0x2f996 .leaf)))) 0x831d0 0x2f999
  (.node (.node (.node (.node .leaf 0x83230 0x2f99c .leaf) 0x83360 0xf9fe (.node .leaf 0x83520
  0xfab3 .leaf)) 0x83530 0x2f9a0 (.node (.node .leaf 0x83630 0x2f99a .leaf) 0x83ad0 0x2f99b (.node
  .leaf 0x83bd0 0x2f99d .leaf))) 0x83c90 0xf93e (.node (.node (.node .leaf 0x83ca0 0x2f9a1 .leaf)
  0x83cc0 0x2f9a2 (.node .leaf 0x83dc0 0x2f9a3 .leaf)) 0x83e70 0x2f99e (.node (.node .leaf 0x83ef0
  0xfab4 .leaf) 0x83f10 0xf958 .leaf))))) 0x843d0 0xf918 (.node (.node (.node (.node (.node (.node
  .leaf 0x84490 0xf96e .leaf) 0x84570 0xfa5f (.node .leaf 0x84571 0x2f99f .leaf)) 0x84ee0 0xf999
  (.node (.node .leaf 0x84f10 0x2f9a8 .leaf) 0x84f30 0x2f9a9 (.node .leaf 0x84fc0 0xf9c2 .leaf)))
  0x85160 0x2f9aa (.node (.node (.node .leaf 0x85640 0x2f9ac .leaf) 0x85cd0 0xf923 (.node .leaf
  0x85fa0 0xf9f0 .leaf)) 0x86060 0xf935 (.node (.node .leaf 0x86120 0xfa20 .leaf) 0x862d0 0xf91f
  (.node .leaf 0x863f0 0xf910 .leaf)))) 0x86500 0x2f9b3 (.node (.node (.node (.node .leaf 0x865c0
  0xf936 .leaf) 0x865c1 0x2f9b4 (.node .leaf 0x86670 0x2f9b5 .leaf)) 0x86690 0x2f9b6 (.node (.node
  .leaf 0x86880 0x2f9b8 .leaf) 0x86a90 0x2f9b7 (.node .leaf 0x86e20 0x2f9ba .leaf))) 0x870e0
  0x2f9b9 (.node (.node (.node .leaf 0x87280 0x2f9bc .leaf) 0x876b0 0x2f9bd (.node .leaf 0x87790
  0xfab5 .leaf)) 0x87791 0x2f9bb (.node (.node .leaf 0x87860 0x2f9be .leaf) 0x87ba0 0xf911
  .leaf)))) 0x87e10 0x2f9c0 (.node (.node (.node (.node (.node .leaf 0x88010 0x2f9c1 .leaf)
  0x881f0 0xf927 (.node .leaf 0x884c0 0xfa08 .leaf)) 0x88600 0x2f9c3 (.node (.node .leaf 0x88630
  0x2f9c4 .leaf) 0x88c20 0xf9a0 (.node .leaf 0x88cf0 0xf9e7 .leaf))) 0x88d70 0x2f9c6 (.node (.node
  (.node .leaf 0x88de0 0x2f9c7 .leaf) 0x88e10 0xf9e8 (.node .leaf 0x88f80 0xf912 .leaf)) 0x88fa0
  0x2f9c9 (.node (.node .leaf 0x89100 0xfa60 .leaf) 0x89410 0xfab6 (.node .leaf 0x89640 0xf924
  .leaf)))) 0x89860 0xfab7 (.node (.node (.node (.node .leaf 0x898b0 0xfa0a .leaf) 0x89960 0xfa61
  (.node .leaf 0x89961 0xfab8 .leaf)) 0x8aa00 0x2f9cf (.node (.node .leaf 0x8aaa0 0xf96f .leaf)
  0x8aaa1 0xf9a1 (.node .leaf 0x8abf0 0xfab9 .leaf))) 0x8acb0 0xfabb (.node (.node (.node .leaf
  0x8ad20 0xf97d .leaf) 0x8ad60 0xf941 (.node .leaf 0x8aed0 0xfabe .leaf)) 0x8aed1 0x2f9d0 (.node
  (.node .leaf 0x8af80 0xfa22 .leaf) 0x8af81 0xfaba .leaf))))))

def cjkInverse_6 : Tree Nat :=
  (.node (.node (.node (.node (.node (.node (.node .leaf 0x8afe1 0xfabd .leaf) 0x8b010 0xfa62
  (.node .leaf 0x8b011 0xfabc .leaf)) 0x8b390 0xfa63 (.node (.node .leaf 0x8b391 0xfabf .leaf)
  0x8b580 0xf9fc (.node .leaf 0x8b800 0xf95a .leaf))) 0x8b8a0 0xfac0 (.node (.node (.node .leaf
  0x8b8a1 0x2f9d1 .leaf) 0x8c480 0xf900 (.node .leaf 0x8c550 0x2f9d2 .leaf)) 0x8cab0 0x2f9d4
  (.node (.node .leaf 0x8cc10 0x2f9d5 .leaf) 0x8cc20 0xf948 (.node .leaf 0x8cc80 0xf903 .leaf))))
  0x8cd30 0xfa64 (.node (.node (.node (.node .leaf 0x8d080 0xfa65 .leaf) 0x8d081 0xfac1 (.node
  .leaf 0x8d1b0 0x2f9d6 .leaf)) 0x8d770 0x2f9d7 (.node (.node .leaf 0x8dbc0 0x2f9db .leaf) 0x8dcb0
  0x2f9da (.node .leaf 0x8def0 0xf937 .leaf))) 0x8df00 0x2f9dc (.node (.node (.node .leaf 0x8eca0
  0xf902 .leaf) 0x8ed40 0x2f9de (.node .leaf 0x8f260 0xf998 .leaf)) 0x8f2a0 0xf9d7 (.node (.node
  .leaf 0x8f380 0xfac2 .leaf) 0x8f381 0x2f9df (.node .leaf 0x8f3b0 0xfa07 .leaf))))) 0x8f620
  0xf98d (.node (.node (.node (.node (.node .leaf 0x8f9e0 0x2f98d .leaf) 0x8fb00 0xf971 (.node
  .leaf 0x8fb60 0xfa66 .leaf)) 0x90230 0xf99a (.node (.node .leaf 0x90380 0xfa25 .leaf) 0x90381
  0xfa67 (.node .leaf 0x90720 0xfac3 .leaf))) 0x907c0 0xf9c3 (.node (.node (.node .leaf 0x908f0
  0xf913 .leaf) 0x90940 0x2f9e2 (.node .leaf 0x90ce0 0xf92c .leaf)) 0x90de0 0xfa2e (.node (.node
  .leaf 0x90f10 0x2f9e3 .leaf) 0x90fd0 0xfa26 (.node .leaf 0x91110 0x2f9e4 .leaf)))) 0x911b0
  0x2f9e6 (.node (.node (.node (.node .leaf 0x916a0 0xf919 .leaf) 0x91990 0xfac4 (.node .leaf
  0x91b40 0xf9b7 .leaf)) 0x91cc0 0xf9e9 (.node (.node .leaf 0x91cf0 0xf97e .leaf) 0x91d10 0xf90a
  (.node .leaf 0x92340 0xf9b1 .leaf))) 0x92380 0x2f9e7 (.node (.node (.node .leaf 0x92760 0xfac5
  .leaf) 0x927c0 0x2f9ea (.node .leaf 0x92d70 0x2f9e8 .leaf)) 0x92d80 0x2f9e9 (.node (.node .leaf
  0x93040 0xf93f .leaf) 0x934a0 0xf99b .leaf))))) 0x93f90 0x2f9eb (.node (.node (.node (.node
  (.node (.node .leaf 0x94150 0x2f9ec .leaf) 0x958b0 0x2f9ee (.node .leaf 0x95ad0 0xf986 .leaf))
  0x95b70 0x2f9f0 (.node (.node .leaf 0x962e0 0xf9c6 .leaf) 0x964b0 0xf951 (.node .leaf 0x964d0
  0xfa09 .leaf))) 0x96750 0xf959 (.node (.node (.node .leaf 0x96780 0xf9d3 .leaf) 0x967c0 0xfac6
  (.node .leaf 0x96860 0xf9dc .leaf)) 0x96a30 0xf9f1 (.node (.node .leaf 0x96b70 0xfa2f .leaf)
  0x96b80 0xf9b8 (.node .leaf 0x96c30 0x2f9f3 .leaf)))) 0x96e20 0xf9ea (.node (.node (.node (.node
  .leaf 0x96e30 0xfa68 .leaf) 0x96e31 0xfac7 (.node .leaf 0x96f60 0xf9b2 .leaf)) 0x96f70 0xf949
  (.node (.node .leaf 0x97230 0x2f9f5 .leaf) 0x97320 0xf938 (.node .leaf 0x97480 0xf9b3 .leaf)))
  0x97560 0xfa1c (.node (.node (.node .leaf 0x97561 0xfac8 .leaf) 0x97db0 0xfac9 (.node .leaf
  0x97e00 0x2f9fa .leaf)) 0x97ff0 0xfa69 (.node (.node .leaf 0x97ff1 0xfaca .leaf) 0x980b0 0xfacb
  .leaf)))) 0x980b1 0x2f9fe (.node (.node (.node (.node (.node .leaf 0x980b2 0x2f9ff .leaf)
  0x98180 0xf9b4 (.node .leaf 0x98290 0x2fa00 .leaf)) 0x983b0 0xfa6a (.node (.node .leaf 0x983b1
  0xfacc .leaf) 0x985e0 0xf9d0 (.node .leaf 0x98e20 0x2fa02 .leaf))) 0x98ef0 0xfa2a (.node (.node
  (.node .leaf 0x98fc0 0xfa2b .leaf) 0x99280 0xfa2c (.node .leaf 0x99290 0x2fa04 .leaf)) 0x99a70
  0x2fa05 (.node (.node .leaf 0x99c20 0x2fa06 .leaf) 0x99f10 0xf91a (.node .leaf 0x99fe0 0x2fa07
  .leaf)))) 0x9a6a0 0xf987 (.node (.node (.node (.node .leaf 0x9b120 0xfacd .leaf) 0x9b121 0x2fa0a
  (.node .leaf 0x9b6f0 0xf939 .leaf)) 0x9c400 0x2fa0b (.node (.node .leaf 0x9c570 0xf9f2 .leaf)
  0x9cfd0 0x2fa0c (.node .leaf 0x9d670 0x2fa0f .leaf))) 0x9db40 0xfa2d (.node (.node (.node .leaf
  0x9dfa0 0xf93a .leaf) 0x9e1e0 0xf920 (.node .leaf 0x9e7f0 0xf940 .leaf)) 0x9e970 0xf988 (.node
  (.node .leaf 0x9e9f0 0xf9f3 .leaf) 0x9ebb0 0x2fa15 .leaf))))))

def cjkInverse_7 : Tree Nat :=
  (.node (.node (.node (.node (.node (.node (.node .leaf 0x9ef90 0x2fa17 .leaf) 0x9efe0 0x2fa18
  (.node .leaf 0x9f050 0x2fa19 .leaf)) 0x9f0f0 0x2fa1a (.node (.node .leaf 0x9f160 0x2fa1b .leaf)
  0x9f3b0 0x2fa1c (.node .leaf 0x9f430 0xfad8 .leaf))) 0x9f8d0 0xf9c4 (.node (.node (.node .leaf
  0x9f8e0 0xfad9 .leaf) 0x9f9c0 0xf907 (.node .leaf 0x9f9c1 0xf908 .leaf)) 0x9f9c2 0xface (.node
  (.node .leaf 0x201220 0x2f803 .leaf) 0x2051c0 0x2f812 (.node .leaf 0x205250 0x2f91b .leaf))))
  0x2054b0 0x2f816 (.node (.node (.node (.node .leaf 0x2063a0 0x2f80d .leaf) 0x208040 0x2f9d9
  (.node .leaf 0x208de0 0x2f9dd .leaf)) 0x20a2c0 0x2f834 (.node (.node .leaf 0x20b630 0x2f838
  .leaf) 0x214e40 0x2f859 (.node .leaf 0x216a80 0x2f860 .leaf))) 0x216ea0 0x2f861 (.node (.node
  (.node .leaf 0x219c80 0x2f86c .leaf) 0x21b180 0x2f871 (.node .leaf 0x21d0b0 0x2f8f8 .leaf))
  0x21de40 0x2f87b (.node (.node .leaf 0x21de60 0x2f87d .leaf) 0x221830 0x2f889 (.node .leaf
  0x2219f0 0x2f939 .leaf))))) 0x223310 0x2f891 (.node (.node (.node (.node (.node .leaf 0x223311
  0x2f892 .leaf) 0x226d40 0x2f8a4 (.node .leaf 0x228440 0xfad0 .leaf)) 0x2284a0 0xfacf (.node
  (.node .leaf 0x22b0c0 0x2f8b8 .leaf) 0x22bf10 0x2f8be (.node .leaf 0x2300a0 0x2f8ca .leaf)))
  0x232b80 0x2f897 (.node (.node (.node .leaf 0x2335f0 0x2f980 .leaf) 0x233930 0x2f989 (.node
  .leaf 0x2339c0 0x2f98a .leaf)) 0x233c30 0x2f8dd (.node (.node .leaf 0x233d50 0xfad1 .leaf)
  0x2346d0 0x2f8e3 (.node .leaf 0x236a30 0x2f8ec .leaf)))) 0x238a70 0x2f8f0 (.node (.node (.node
  (.node .leaf 0x23a8d0 0x2f8f7 .leaf) 0x23afa0 0x2f8f9 (.node .leaf 0x23cbc0 0x2f8fb .leaf))
  0x23d1e0 0x2f906 (.node (.node .leaf 0x23ed10 0x2f90d .leaf) 0x23f5e0 0x2f910 (.node .leaf
  0x23f8e0 0x2f911 .leaf))) 0x242630 0x2f91d (.node (.node (.node .leaf 0x242ee0 0xfa6c .leaf)
  0x243ab0 0x2f91f (.node .leaf 0x246080 0x2f923 .leaf)) 0x247350 0x2f926 (.node (.node .leaf
  0x248140 0x2f927 .leaf) 0x24c360 0x2f935 .leaf))))) 0x24c920 0x2f937 (.node (.node (.node (.node
  (.node (.node .leaf 0x24fa10 0x2f93b .leaf) 0x24fb80 0x2f93c (.node .leaf 0x250440 0x2f93d
  .leaf)) 0x250f20 0x2f942 (.node (.node .leaf 0x250f30 0x2f941 .leaf) 0x251190 0x2f943 (.node
  .leaf 0x251330 0x2f944 .leaf))) 0x252490 0xfad5 (.node (.node (.node .leaf 0x2541d0 0x2f94d
  .leaf) 0x256260 0x2f952 (.node .leaf 0x2569a0 0x2f954 .leaf)) 0x256c50 0x2f955 (.node (.node
  .leaf 0x2597c0 0x2f95c .leaf) 0x25aa70 0x2f95d (.node .leaf 0x25aa71 0x2f95e .leaf)))) 0x25bab0
  0x2f961 (.node (.node (.node (.node .leaf 0x25c800 0x2f965 .leaf) 0x25cd00 0xfad6 (.node .leaf
  0x25f860 0x2f96b .leaf)) 0x261da0 0x2f898 (.node (.node .leaf 0x262280 0x2f972 .leaf) 0x262470
  0x2f973 (.node .leaf 0x262d90 0x2f975 .leaf))) 0x2633e0 0x2f977 (.node (.node (.node .leaf
  0x264da0 0x2f97b .leaf) 0x265230 0x2f97c (.node .leaf 0x265a80 0x2f97e .leaf)) 0x267a70 0x2f987
  (.node (.node .leaf 0x267b50 0x2f988 .leaf) 0x26b3c0 0x2f997 .leaf)))) 0x26c360 0x2f9a4 (.node
  (.node (.node (.node (.node .leaf 0x26cd50 0x2f9a6 .leaf) 0x26d6b0 0x2f9a5 (.node .leaf 0x26f2c0
  0x2f9ad .leaf)) 0x26fb10 0x2f9b0 (.node (.node .leaf 0x270d20 0x2f9b1 .leaf) 0x273ca0 0x2f9ab
  (.node .leaf 0x276670 0x2f9c5 .leaf))) 0x278ae0 0x2f9cb (.node (.node (.node .leaf 0x279660
  0x2f9cc .leaf) 0x27ca80 0x2f9d3 (.node .leaf 0x27ed30 0xfad7 .leaf)) 0x27f2f0 0x2f9d8 (.node
  (.node .leaf 0x285d20 0x2f9e0 .leaf) 0x285ed0 0x2f9e1 (.node .leaf 0x2872e0 0x2f9e5 .leaf))))
  0x28bfa0 0x2f9ed (.node (.node (.node (.node .leaf 0x28d770 0x2f9f1 .leaf) 0x291450 0x2f9f6
  (.node .leaf 0x291df0 0x2f81c .leaf)) 0x2921a0 0x2f9f7 (.node (.node .leaf 0x2940a0 0x2f9fb
  .leaf) 0x294960 0x2f9fd (.node .leaf 0x295b60 0x2fa01 .leaf))) 0x29b300 0x2fa09 (.node (.node
  (.node .leaf 0x2a0ce0 0x2fa10 .leaf) 0x2a1050 0x2fa12 (.node .leaf 0x2a20e0 0x2fa13 .leaf))
  0x2a2910 0x2fa14 (.node (.node .leaf 0x2a3920 0x2f88f .leaf) 0x2a6000 0x2fa1d .leaf))))))

/-- The CJK compatibility ideograph of a standardized variant, keyed by 16 times the base plus the number of the selector. -/
def cjkInverse : Tree Nat :=
  (.node (.node (.node cjkInverse_0 0x52030 0x2f81e cjkInverse_1) 0x5bee0 0xf9bc (.node
  cjkInverse_2 0x65c50 0xf983 cjkInverse_3)) 0x721b0 0xf91e (.node (.node cjkInverse_4 0x7df42
  0xfab0 cjkInverse_5) 0x8afe0 0xf95d (.node cjkInverse_6 0x9ece0 0xf989 cjkInverse_7)))

end Verif.Tables
