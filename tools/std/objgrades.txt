rfc2315 1 widened
rfc2315 2 relaxed
rfc2315 3 relaxed
rfc2459 14 refused 48 19 161 17 163 15 48 0 49 11 48 9 160 3 2 1 0 161 2 5 0
rfc2459 20 refused 48 17 163 15 48 0 49 11 48 9 160 3 2 1 0 161 2 5 0
rfc2459 21 refused 48 17 163 15 48 0 49 11 48 9 160 3 2 1 0 161 2 5 0
rfc2459 24 refused 48 21 160 19 48 17 163 15 48 0 49 11 48 9 160 3 2 1 0 161 2 5 0
rfc2459 25 refused 48 3 128 1 0
rfc2459 27 refused 48 21 48 19 162 17 163 15 48 0 49 11 48 9 160 3 2 1 0 161 2 5 0
rfc2459 28 refused 48 22 48 20 6 1 43 163 15 48 0 49 11 48 9 160 3 2 1 0 161 2 5 0
rfc2459 29 relaxed
rfc2459 30 refused 2 1 0
rfc2459 31 refused 48 0
rfc2459 35 refused 48 17 163 15 48 0 49 11 48 9 160 3 2 1 0 161 2 5 0
rfc2634 0 relaxed
rfc2634 2 rewritten .record (Vals.cons (.oid [1, 3]) (Vals.cons (.absent) (Vals.cons (.absent) (Vals.cons (.list (Vals.cons (.record (Vals.cons (.oid [1, 3]) (Vals.cons (.octets [5, 0]) (Vals.nil)))) (Vals.nil))) (Vals.nil)))))
rfc2634 3 rewritten .list (Vals.cons (.record (Vals.cons (.oid [1, 3]) (Vals.cons (.absent) (Vals.cons (.absent) (Vals.cons (.list (Vals.cons (.record (Vals.cons (.oid [1, 3]) (Vals.cons (.octets [5, 0]) (Vals.nil)))) (Vals.nil))) (Vals.nil)))))) (Vals.nil))
rfc2985 1 refused 48 8 2 1 0 48 3 6 1 43
rfc2985 25 none
rfc3161 0 none
rfc3370 7 none
rfc3370 8 none
rfc3370 9 none
rfc3370 10 none
rfc3565 -1 (.ALGORITHM, .oid [2, 16, 840, 1, 101, 3, 4, 1, 5])
rfc3565 -2 (.ALGORITHM, .oid [2, 16, 840, 1, 101, 3, 4, 1, 25])
rfc3565 -3 (.ALGORITHM, .oid [2, 16, 840, 1, 101, 3, 4, 1, 45])
rfc3739 7 none
rfc3739 8 none
rfc3770 -1 (.ATTRIBUTE, .oid [1, 3, 6, 1, 5, 5, 7, 10, 7])
rfc4010 -1 (.ALGORITHM, .oid [1, 2, 410, 200004, 7, 1, 1, 1])
rfc4055 7 changed 48 0
rfc4055 8 changed 48 0
rfc4055 9 none
rfc4055 10 none
rfc4055 11 none
rfc4055 12 none
rfc4055 13 none
rfc4334 0 relaxed
rfc4334 1 relaxed
rfc4357 21 refused 48 18 6 7 42 133 3 2 2 35 0 6 7 42 133 3 2 2 30 0
rfc4357 -1 (.ALGORITHM, .oid [1, 2, 643, 2, 2, 9])
rfc4476 2 relaxed
rfc5035 0 changed 48 6 48 4 48 2 4 0
rfc5126 2 relaxed
rfc5280 14 relaxed
rfc5280 20 relaxed
rfc5280 21 relaxed
rfc5280 44 relaxed
rfc5280 55 relaxed
rfc5280 62 none
rfc5280 63 none
rfc5280 64 none
rfc5280 65 none
rfc5280 66 none
rfc5636 -1 (.CONTENT_TYPE, .oid [1, 2, 410, 200004, 10, 1, 1, 1])
rfc5636 -2 (.CONTENT_TYPE, .oid [1, 2, 410, 200004, 10, 1, 1, 2])
rfc5636 -3 (.CONTENT_TYPE, .oid [1, 2, 410, 200004, 10, 1, 1, 3])
rfc5752 0 changed 48 23 48 3 6 1 43 48 3 6 1 43 48 7 48 3 6 1 43 4 0 48 2 4 0
rfc5755 2 refused 48 2 48 0
rfc5755 10 rewritten .record (Vals.cons (.oid [1, 3]) (Vals.cons (.bits [false, true]) (Vals.cons (.list (Vals.cons (.record (Vals.cons (.oid [1, 3]) (Vals.cons (.octets [5, 0]) (Vals.nil)))) (Vals.nil))) (Vals.nil))))
rfc5755 12 rewritten .record (Vals.cons (.oid [1, 3]) (Vals.cons (.bits [false, true]) (Vals.cons (.list (Vals.cons (.record (Vals.cons (.oid [1, 3]) (Vals.cons (.octets [5, 0]) (Vals.nil)))) (Vals.nil))) (Vals.nil))))
rfc5913 0 rewritten .list (Vals.cons (.record (Vals.cons (.oid [1, 3]) (Vals.cons (.bits [false, true]) (Vals.cons (.list (Vals.cons (.record (Vals.cons (.oid [1, 3]) (Vals.cons (.octets [5, 0]) (Vals.nil)))) (Vals.nil))) (Vals.nil))))) (Vals.nil))
rfc5914 0 none
rfc5934 1 relaxed
rfc5934 2 relaxed
rfc5934 3 relaxed
rfc5934 4 relaxed
rfc5934 5 relaxed
rfc6031 15 relaxed
rfc6031 26 relaxed
rfc6031 27 relaxed
rfc6402 0 relaxed
rfc6402 1 refused 48 15 2 1 0 48 3 2 1 0 161 5 6 1 43 5 0
rfc6402 10 relaxed
rfc6402 27 relaxed
rfc6402 29 relaxed
rfc6402 31 relaxed
rfc6402 32 relaxed
rfc6402 33 none
rfc6402 34 none
rfc6664 -1 (.SMIME_CAPS, .oid [1, 2, 840, 113549, 1, 1, 10])
rfc6664 -2 (.SMIME_CAPS, .oid [1, 2, 840, 113549, 1, 1, 7])
rfc6664 -3 (.SMIME_CAPS, .oid [1, 2, 840, 10046, 2, 1])
rfc6955 -1 (.ALGORITHM, .oid [1, 3, 6, 1, 5, 5, 7, 6, 3])
rfc6955 -2 (.ALGORITHM, .oid [1, 3, 6, 1, 5, 5, 7, 6, 15])
rfc6955 -3 (.ALGORITHM, .oid [1, 3, 6, 1, 5, 5, 7, 6, 16])
rfc6955 -4 (.ALGORITHM, .oid [1, 3, 6, 1, 5, 5, 7, 6, 17])
rfc6955 -5 (.ALGORITHM, .oid [1, 3, 6, 1, 5, 5, 7, 6, 18])
rfc6955 -6 (.ALGORITHM, .oid [1, 3, 6, 1, 5, 5, 7, 6, 25])
rfc6955 -7 (.ALGORITHM, .oid [1, 3, 6, 1, 5, 5, 7, 6, 26])
rfc6955 -8 (.ALGORITHM, .oid [1, 3, 6, 1, 5, 5, 7, 6, 27])
rfc6955 -9 (.ALGORITHM, .oid [1, 3, 6, 1, 5, 5, 7, 6, 28])
rfc7292 5 refused 48 0
rfc7508 0 relaxed
rfc7906 28 rewritten .record (Vals.cons (.oid [1, 3]) (Vals.cons (.absent) (Vals.cons (.absent) (Vals.cons (.list (Vals.cons (.record (Vals.cons (.oid [1, 3]) (Vals.cons (.octets [5, 0]) (Vals.nil)))) (Vals.nil))) (Vals.nil)))))
rfc8017 9 changed 48 0
rfc8017 10 changed 48 0
rfc8017 20 none
rfc8103 0 none
rfc8418 0 none
rfc8418 1 none
rfc8418 2 none
rfc8520 -1 (.CONTENT_TYPE, .oid [1, 2, 840, 113549, 1, 9, 16, 1, 41])
