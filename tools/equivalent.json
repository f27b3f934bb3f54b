{
 "ciCount |   | none => .ok 0": "equivalent program: without e_range the number is not used",
 "validateColumn | .positive 1 none": "equivalent program: validate_array ignores the domain",
 "NDArray.reshape | if s.prod = a.data.length then": "equivalent program on arrays whose length is the product of their shape, the only ones NumPy has: the requested shape then always has the same product",
 "kdeRefuses | d.length < 2": "equivalent program: a single sample is equal to itself, so the other clause covers it",
 "tableReq | r.modelParams ++ [.dict (seedText": "equivalent program: the text before is arbitrary in the request",
 "RunKw.empty": "equivalent program: run_sampler without arguments raises before the number of steps is read",
 "ciSampleCount": "equivalent program: the branch is not reachable"
}