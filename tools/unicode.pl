use Unicode::UCD qw(prop_invmap);
sub dump_map { my ($p)=@_; my ($l,$m,$f,$d)=prop_invmap($p); for my $i (0..$#$l){ my $x=$m->[$i]; $x=ref $x ? "@$x":$x; print "$p $l->[$i] $x\n"; } }
dump_map("age"); dump_map("gc"); dump_map("ea");
