#!/usr/bin/perl
# Writes lean/Verif/Tables/Cluster.lean from the tables of the local Perl (Unicode 15.0).
# Usage: perl tools/gen_cluster.pl > lean/Verif/Tables/Cluster.lean
use strict; use warnings; no warnings 'utf8';
use Unicode::UCD;
my $v = Unicode::UCD::UnicodeVersion();
die "Unicode $v" unless $v eq '15.0.0';
sub ranges { my $re = shift; my @r; my ($s, $e) = (-1, -2);
  for my $c (0 .. 0x10ffff) { next if $c >= 0xd800 && $c <= 0xdfff;
    if (chr($c) =~ $re) { if ($c == $e + 1) { $e = $c } else { push @r, [$s, $e] if $s >= 0; $s = $e = $c } } }
  push @r, [$s, $e] if $s >= 0; return @r }
sub show { my ($doc, $name, @r) = @_; my $out = "/-- $doc -/\ndef $name : List (Nat × Nat) := [\n"; my @l;
  while (@r) { push @l, "  " . join(", ", map { sprintf "(0x%x, 0x%x)", @$_ } splice(@r, 0, 6)) }
  return $out . join(",\n", @l) . "]\n\n" }
binmode STDOUT, ':raw';
my $hst = sub { my $t = shift; map { sprintf "%x-%x", @$_ } ranges($t) };
die unless join(" ", $hst->(qr/\p{GCB=L}/)) eq "1100-115f a960-a97c";
die unless join(" ", $hst->(qr/\p{GCB=V}/)) eq "1160-11a7 d7b0-d7c6";
die unless join(" ", $hst->(qr/\p{GCB=T}/)) eq "11a8-11ff d7cb-d7fb";
die unless join(" ", $hst->(qr/\p{GCB=RI}/)) eq "1f1e6-1f1ff";
for my $c (0xac00 .. 0xd7a3) { die unless (chr($c) =~ /\p{GCB=LV}/) == (($c - 0xac00) % 28 == 0); die unless chr($c) =~ /\p{GCB=LV}|\p{GCB=LVT}/ }
print "/-!\n# Classes for grapheme clusters (Unicode 15.0)\n\nWritten by `tools/gen_cluster.pl` from the tables of the local Perl.\n-/\n\nnamespace Verif.Tables\n\n";
print show("Grapheme_Cluster_Break = Control.", "gcbControl", ranges(qr/\p{GCB=Control}/));
print show("Extended_Pictographic.", "extPict", ranges(qr/\p{ExtPict}/));
print "end Verif.Tables\n";
