vectors 1104 of which invalid 76
mismatches 0 unparsed 0
