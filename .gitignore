__pycache__/
.lake/
lake-manifest.json
