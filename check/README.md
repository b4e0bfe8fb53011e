Comparison of the model with the parameter files shipped in /repo/api/parameters (a test of the transcription, no part of the
proofs).  `dump.lean.txt` writes the circuits that `Verif.Setup` builds to text files; `chk.py` (conversions) and
`chk_transfers.py` (transfers) recompute from them, in plain Python, the commitments to selectors and permutation with the
reference string of the repository, and compare them with the `*-vk.bin` files.

    cp dump.lean.txt /tmp/w/dump.lean; cp *.py /tmp/w
    cd ../lean && lake build && lake env sh -c 'cd /tmp/w && lean dump.lean'     # long: the transfers take about an hour
    cd /tmp/w && python3 chk.py && python3 chk_transfers.py

The dump uses the exponent 5 in place of the inverse S-box exponent, which only enters the round keys; the scripts put the real
round keys in.  Result: for the four conversions and all 36 transfers (one to six inputs and outputs, depth 20) the number of
variables, the size, the gates of the public inputs, the 13 selector commitments, the commitment to the boolean selector and the
5 permutation commitments are equal to the shipped ones.

`shipped.py` compares the bytes of the shipped keys as they stand in `lean/Verif/Setup/Shipped*.lean` (C102) with the files.
