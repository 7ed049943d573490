Test (not proof) of `Model/Recovery.lean`. `antlr.py` decodes the automaton in the generated parser and runs a Python
transcription of ANTLR's `ParserATNSimulator` (SLL then full context), `DefaultErrorStrategy` and the generated rule
methods on it. `gen.py <seed> <n> <expected> <input>` writes random token streams and the trees this gives; `show.txt`
is a Lean program printing the trees of the model:

    python3 gen.py 1 5000 /tmp/exp /tmp/inp
    cp show.txt /tmp/Show.lean; cd /verif/lean; lake env lean --run /tmp/Show.lean < /tmp/inp > /tmp/got   # drop warnings
    diff /tmp/exp /tmp/got

60000 streams (random, and mutated expressions of the grammar) showed no difference.
