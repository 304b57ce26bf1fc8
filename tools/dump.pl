use strict; use warnings;
use Unicode::UCD qw(prop_invmap);
use Unicode::Normalize qw(NFD NFKD getCombinClass getComposite NFC checkNFC);
# dump per-codepoint: cp ccc nfd nfkd nfcqc gc
my ($l,$m)=prop_invmap("General_Category");
sub look { my($l,$m,$c)=@_; my($lo,$hi)=(0,scalar(@$l)); while($hi-$lo>1){my $mid=($lo+$hi)>>1; if($l->[$mid]<=$c){$lo=$mid}else{$hi=$mid}} $m->[$lo] }
my ($ql,$qm)=prop_invmap("NFC_Quick_Check");
my ($xl,$xm)=prop_invmap("Full_Composition_Exclusion");
my ($gl,$gm)=prop_invmap("Grapheme_Cluster_Break");
my ($el,$em)=prop_invmap("Grapheme_Extend");
my ($wl,$wm)=prop_invmap("White_Space");
for my $c (0..0x10FFFF) { next if $c>=0xD800 && $c<=0xDFFF; no warnings;
  my $ch=chr($c);
  my $nfd = join(" ",map {sprintf "%x",ord} split //, NFD($ch));
  my $nfkd = join(" ",map {sprintf "%x",ord} split //, NFKD($ch));
  my $gc=look($l,$m,$c); 
  my $ccc=getCombinClass($c);
  print join(";",sprintf("%x",$c),$ccc,$nfd,$nfkd,look($ql,$qm,$c),$gc,look($xl,$xm,$c),look($gl,$gm,$c),look($el,$em,$c),look($wl,$wm,$c)),"\n";
}
